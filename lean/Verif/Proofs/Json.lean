import Verif.Props.Format
import Verif.Spec.Json

/-!
# The texts of JSON values
-/

set_option backward.isDefEq.respectTransparency false
set_option backward.dsimp.instances true

namespace Verif.Proofs
open Spec Props Json

/-! ## Strings -/

theorem junescape_escape (c : Char) (s : Str) : unescape (Json.escape c ++ s) = some (c, s) := by
  unfold Json.escape
  split
  · next h => rcases h with rfl | rfl <;> rfl
  next h0 =>
  split
  · next h => subst h; rfl
  split
  · next h => subst h; rfl
  split
  · next h => subst h; rfl
  split
  · next h => subst h; rfl
  split
  · next h => subst h; rfl
  split
  · next h =>
    have hlt : c.toNat < 16 ^ 4 := by
      rcases h with h | rfl | rfl | rfl | h | h
      · omega
      · decide
      · decide
      · decide
      · omega
      · omega
    have := hex_read (k := 4) (n := c.toNat) hlt s
    simp only [List.cons_append, unescape, this.1, this.2, Char.ofNat_toNat]
  · exact unescape_plain (by intro hc; exact h0 (.inr hc)) s

theorem jescape_head (c : Char) (s : Str) : (Json.escape c ++ s).head? ≠ some '"' := by
  unfold Json.escape
  split
  · simp
  next h =>
  repeat' split
  all_goals simp
  exact fun hc => h (.inl hc)

theorem jescaped_inj : ∀ {s t a b : Str},
    s.flatMap Json.escape ++ '"' :: a = t.flatMap Json.escape ++ '"' :: b → s = t ∧ a = b
  | [], [], _, _, h => by simpa using h
  | [], d :: t, a, b, h => by
    have := jescape_head d (t.flatMap Json.escape ++ '"' :: b)
    rw [← List.append_assoc, ← List.flatMap_cons, ← h] at this
    simp at this
  | c :: s, [], a, b, h => by
    have := jescape_head c (s.flatMap Json.escape ++ '"' :: a)
    rw [← List.append_assoc, ← List.flatMap_cons, h] at this
    simp at this
  | c :: s, d :: t, a, b, h => by
    have h1 := junescape_escape c (s.flatMap Json.escape ++ '"' :: a)
    have h2 := junescape_escape d (t.flatMap Json.escape ++ '"' :: b)
    simp only [List.flatMap_cons, List.append_assoc] at h
    rw [h, h2] at h1
    simp only [Option.some.injEq, Prod.mk.injEq] at h1
    obtain ⟨h3, h4⟩ := jescaped_inj h1.2.symm
    exact ⟨by rw [h1.1, h3], h4⟩

theorem jquoted_inj {s t a b : Str} (h : Json.quoted s ++ a = Json.quoted t ++ b) : s = t ∧ a = b := by
  simp only [Json.quoted, List.cons_append, List.append_assoc, List.nil_append, List.cons.injEq, true_and] at h
  exact jescaped_inj h

/-! ## Injectivity -/

/-- What stands behind a value. -/
def Ends (r : Str) : Prop := r = [] ∨ r.head? = some ',' ∨ r.head? = some '\n'

theorem ends_newline (d : Nat) (r : Str) : Ends (newline d ++ r) := .inr (.inr rfl)

theorem ends_items (d : Nat) (xs : List Json) (r : Str) : Ends (itemsText d xs ++ r) := by
  cases xs with
  | nil => rw [itemsText, List.append_assoc]; exact ends_newline _ _
  | cons => exact .inr (.inl rfl)

theorem ends_fields (d : Nat) (xs : List (Str × Json)) (r : Str) : Ends (fieldsText d xs ++ r) := by
  cases xs with
  | nil => rw [fieldsText, List.append_assoc]; exact ends_newline _ _
  | cons => exact .inr (.inl rfl)

theorem itoa_ne (n : Int) : itoa n ≠ [] := by
  unfold itoa
  split
  · simp
  · exact Nat.toDigits_ne_nil

/-- Numbers in front of something that ends a value. -/
theorem jitoa_inj {m n : Int} {a b : Str} (ha : Ends a) (hb : Ends b) (h : itoa m ++ a = itoa n ++ b) :
    m = n ∧ a = b := by
  have key : ∀ {m n : Int} {a d : Str}, Ends a → itoa n = itoa m ++ d → ∀ e, a = d ++ e → d = [] := by
    intro m n a d ha h e he
    cases d with
    | nil => rfl
    | cons c d =>
      have hc : c ∈ itoa n := by rw [h]; simp
      subst he
      rcases ha with h | h | h
      · simp at h
      · simp at h; subst h; rcases itoa_chars hc with h | h <;> simp at h
      · simp at h; subst h; rcases itoa_chars hc with h | h <;> simp at h
  rcases List.append_eq_append_iff.1 h with ⟨d, h1, h2⟩ | ⟨d, h1, h2⟩
  · have := key ha h1 _ h2
    subst this
    simp at h1 h2
    exact ⟨(itoa_inj h1).symm, h2⟩
  · have := key hb h1 _ h2
    subst this
    simp at h1 h2
    exact ⟨itoa_inj h1, h2.symm⟩

/-- The first character of a text tells the kind of the value. -/
def kind : Json → Char → Prop
  | .null, c => c = 'n'
  | .bool true, c => c = 't'
  | .bool false, c => c = 'f'
  | .num _, c => c.isDigit = true ∨ c = '-'
  | .str _, c => c = '"'
  | .arr _, c => c = '['
  | .obj _, c => c = '{'

theorem text_head (d : Nat) (j : Json) : ∃ c t, text d j = c :: t ∧ kind j c := by
  cases j with
  | null => exact ⟨_, _, rfl, rfl⟩
  | bool b => cases b <;> exact ⟨_, _, rfl, rfl⟩
  | num n =>
    rw [text]
    cases h : itoa n with
    | nil => exact absurd h (itoa_ne n)
    | cons c t => exact ⟨c, t, rfl, itoa_chars (n := n) (by rw [h]; simp)⟩
  | str s => exact ⟨_, _, rfl, rfl⟩
  | arr xs => cases xs <;> exact ⟨_, _, rfl, rfl⟩
  | obj fs => cases fs <;> exact ⟨_, _, rfl, rfl⟩

theorem kind_of {d : Nat} {j j' : Json} {r r' : Str} (h : text d j ++ r = text d j' ++ r') : ∃ c, kind j c ∧ kind j' c := by
  obtain ⟨c, t, h1, h2⟩ := text_head d j
  obtain ⟨c', t', h3, h4⟩ := text_head d j'
  rw [h1, h3] at h
  simp at h
  exact ⟨c, h2, h.1 ▸ h4⟩

theorem newline_bracket {d : Nat} {c : Char} (hc : c ≠ ' ') {x y : Str} {c' : Char} (hc' : c' ≠ ' ')
    (h : newline d ++ c :: x = newline (d + 1) ++ c' :: y) : False := by
  simp only [newline, List.cons_append, List.cons.injEq, true_and] at h
  rw [show 2 * (d + 1) = 2 * d + 2 from rfl, ← List.replicate_append_replicate, List.append_assoc] at h
  have := List.append_cancel_left h
  simp at this
  exact hc this.1

mutual

theorem text_inj : ∀ (j j' : Json) (d : Nat) {r r' : Str}, Ends r → Ends r' → text d j ++ r = text d j' ++ r' →
    j = j' ∧ r = r' := by
  intro j j' d r r' hr hr' h
  obtain ⟨c, hk, hk'⟩ := kind_of h
  match j, j' with
  | .null, .null => exact ⟨rfl, List.append_cancel_left h⟩
  | .bool b, .bool b' =>
    cases b <;> cases b' <;> first
      | exact ⟨rfl, List.append_cancel_left h⟩
      | (simp [kind] at hk hk'; subst hk; simp at hk')
  | .num n, .num n' =>
    simp only [text] at h
    obtain ⟨h1, h2⟩ := jitoa_inj hr hr' h
    exact ⟨by rw [h1], h2⟩
  | .str s, .str s' =>
    simp only [text] at h
    obtain ⟨h1, h2⟩ := jquoted_inj h
    exact ⟨by rw [h1], h2⟩
  | .arr [], .arr [] => exact ⟨rfl, List.append_cancel_left h⟩
  | .arr [], .arr (_ :: _) => simp [text, newline] at h
  | .arr (_ :: _), .arr [] => simp [text, newline] at h
  | .arr (x :: xs), .arr (y :: ys) =>
    simp only [text, List.cons_append, List.append_assoc, List.cons.injEq, true_and] at h
    obtain ⟨h1, h2⟩ := text_inj x y (d + 1) (ends_items _ _ _) (ends_items _ _ _) (List.append_cancel_left h)
    obtain ⟨h3, h4⟩ := items_inj xs ys d h2
    exact ⟨by rw [h1, h3], h4⟩
  | .obj [], .obj [] => exact ⟨rfl, List.append_cancel_left h⟩
  | .obj [], .obj (_ :: _) => simp [text, newline] at h
  | .obj (_ :: _), .obj [] => simp [text, newline] at h
  | .obj ((k, x) :: xs), .obj ((k', y) :: ys) =>
    simp only [text, fieldText, List.cons_append, List.append_assoc, List.cons.injEq, true_and] at h
    obtain ⟨h0, h⟩ := jquoted_inj (List.append_cancel_left h)
    simp only [List.cons.injEq, true_and] at h
    obtain ⟨h1, h2⟩ := text_inj x y (d + 1) (ends_fields _ _ _) (ends_fields _ _ _) h
    obtain ⟨h3, h4⟩ := fields_inj xs ys d h2
    exact ⟨by rw [h0, h1, h3], h4⟩
  | .null, .bool true => simp [kind] at hk hk'; subst hk; simp at hk'
  | .null, .bool false => simp [kind] at hk hk'; subst hk; simp at hk'
  | .null, .num _ => simp [kind] at hk hk'; subst hk; simp at hk'
  | .null, .str _ => simp [kind] at hk hk'; subst hk; simp at hk'
  | .null, .arr _ => simp [kind] at hk hk'; subst hk; simp at hk'
  | .null, .obj _ => simp [kind] at hk hk'; subst hk; simp at hk'
  | .bool b, .null => cases b <;> (simp [kind] at hk hk'; subst hk; simp at hk')
  | .bool b, .num _ => cases b <;> (simp [kind] at hk hk'; subst hk; simp at hk')
  | .bool b, .str _ => cases b <;> (simp [kind] at hk hk'; subst hk; simp at hk')
  | .bool b, .arr _ => cases b <;> (simp [kind] at hk hk'; subst hk; simp at hk')
  | .bool b, .obj _ => cases b <;> (simp [kind] at hk hk'; subst hk; simp at hk')
  | .num _, .null => simp [kind] at hk hk'; subst hk'; simp at hk
  | .num _, .bool b => cases b <;> (simp [kind] at hk hk'; subst hk'; simp at hk)
  | .num _, .str _ => simp [kind] at hk hk'; subst hk'; simp at hk
  | .num _, .arr _ => simp [kind] at hk hk'; subst hk'; simp at hk
  | .num _, .obj _ => simp [kind] at hk hk'; subst hk'; simp at hk
  | .str _, .null => simp [kind] at hk hk'; subst hk; simp at hk'
  | .str _, .bool b => cases b <;> (simp [kind] at hk hk'; subst hk; simp at hk')
  | .str _, .num _ => simp [kind] at hk hk'; subst hk; simp at hk'
  | .str _, .arr _ => simp [kind] at hk hk'; subst hk; simp at hk'
  | .str _, .obj _ => simp [kind] at hk hk'; subst hk; simp at hk'
  | .arr _, .null => simp [kind] at hk hk'; subst hk; simp at hk'
  | .arr _, .bool b => cases b <;> (simp [kind] at hk hk'; subst hk; simp at hk')
  | .arr _, .num _ => simp [kind] at hk hk'; subst hk; simp at hk'
  | .arr _, .str _ => simp [kind] at hk hk'; subst hk; simp at hk'
  | .arr _, .obj _ => simp [kind] at hk hk'; subst hk; simp at hk'
  | .obj _, .null => simp [kind] at hk hk'; subst hk; simp at hk'
  | .obj _, .bool b => cases b <;> (simp [kind] at hk hk'; subst hk; simp at hk')
  | .obj _, .num _ => simp [kind] at hk hk'; subst hk; simp at hk'
  | .obj _, .str _ => simp [kind] at hk hk'; subst hk; simp at hk'
  | .obj _, .arr _ => simp [kind] at hk hk'; subst hk; simp at hk'

theorem items_inj : ∀ (xs ys : List Json) (d : Nat) {r r' : Str}, itemsText d xs ++ r = itemsText d ys ++ r' →
    xs = ys ∧ r = r' := by
  intro xs ys d r r' h
  match xs, ys with
  | [], [] => exact ⟨rfl, List.append_cancel_left h⟩
  | [], _ :: _ => simp [itemsText, newline] at h
  | _ :: _, [] => simp [itemsText, newline] at h
  | x :: xs, y :: ys =>
    simp only [itemsText, List.cons_append, List.append_assoc, List.cons.injEq, true_and] at h
    obtain ⟨h1, h2⟩ := text_inj x y (d + 1) (ends_items _ _ _) (ends_items _ _ _) (List.append_cancel_left h)
    obtain ⟨h3, h4⟩ := items_inj xs ys d h2
    exact ⟨by rw [h1, h3], h4⟩

theorem fields_inj : ∀ (xs ys : List (Str × Json)) (d : Nat) {r r' : Str}, fieldsText d xs ++ r = fieldsText d ys ++ r' →
    xs = ys ∧ r = r' := by
  intro xs ys d r r' h
  match xs, ys with
  | [], [] => exact ⟨rfl, List.append_cancel_left h⟩
  | [], _ :: _ => simp [fieldsText, newline] at h
  | _ :: _, [] => simp [fieldsText, newline] at h
  | (k, x) :: xs, (k', y) :: ys =>
    simp only [fieldsText, fieldText, List.cons_append, List.append_assoc, List.cons.injEq, true_and] at h
    obtain ⟨h0, h⟩ := jquoted_inj (List.append_cancel_left h)
    simp only [List.cons.injEq, true_and] at h
    obtain ⟨h1, h2⟩ := text_inj x y (d + 1) (ends_fields _ _ _) (ends_fields _ _ _) h
    obtain ⟨h3, h4⟩ := fields_inj xs ys d h2
    exact ⟨by rw [h0, h1, h3], h4⟩

end

/-- The indented text of a value determines the value. -/
theorem marshalIndent_inj {j j' : Json} {s : Str} (h : marshalIndent j = some s) (h' : marshalIndent j' = some s) :
    j = j' := by
  unfold marshalIndent at h h'
  split at h <;> simp at h
  split at h' <;> simp at h'
  exact (text_inj j j' 0 (r := []) (r' := []) (.inl rfl) (.inl rfl) (by simp [h, h'])).1

/-! ## The texts are JSON -/

theorem jsonSpace_newline (d : Nat) : JsonSpace (newline d) := by
  intro c hc
  simp only [newline, List.mem_cons, List.mem_replicate] at hc
  rcases hc with h | h
  · exact .inr (.inr (.inl h))
  · exact .inl h.2

theorem jsonSpace_nil : JsonSpace [] := by intro c hc; simp at hc

theorem hex_digits (k n : Nat) : ∀ d ∈ hex k n, d ∈ c!"0123456789abcdef" := by
  induction k generalizing n with
  | zero => intro d hd; simp [hex] at hd
  | succ k ih =>
    intro d hd
    simp only [hex, List.mem_append, List.mem_singleton] at hd
    rcases hd with h | rfl
    · exact ih _ d h
    · have : ∀ m : Fin 16, m.val.digitChar ∈ c!"0123456789abcdef" := by decide
      exact this ⟨n % 16, by omega⟩

theorem map_toLower {h : Str} (hh : ∀ d ∈ h, d ∈ c!"0123456789abcdef") : h.map Char.toLower = h := by
  have : ∀ d ∈ c!"0123456789abcdef", d.toLower = d := by decide
  induction h with
  | nil => rfl
  | cons d h ih =>
    simp only [List.map_cons, this d (hh d (by simp)), ih (fun e he => hh e (by simp [he]))]

theorem jsonChars_escape (c : Char) {r s : Str} (h : JsonChars r s) : JsonChars (Json.escape c ++ r) (c :: s) := by
  unfold Json.escape
  split
  · next h0 => rcases h0 with rfl | rfl <;> exact .short (by decide) h
  next h0 =>
  split
  · next e => subst e; exact .short (by decide) h
  split
  · next e => subst e; exact .short (by decide) h
  split
  · next e => subst e; exact .short (by decide) h
  split
  · next e => subst e; exact .short (by decide) h
  split
  · next e => subst e; exact .short (by decide) h
  split
  · next h1 =>
    have hlt : c.toNat < 16 ^ 4 := by
      rcases h1 with h | rfl | rfl | rfl | h | h
      · omega
      · decide
      · decide
      · decide
      · omega
      · omega
    refine .code (hex_length _ _) ?_ ?_ h
    · intro d hd
      have hs : ∀ d ∈ c!"0123456789abcdef", d ∈ c!"0123456789abcdefABCDEF" := by decide
      exact hs d (hex_digits _ _ d hd)
    · rw [map_toLower (hex_digits _ _), hex_value 4 _ hlt]
  · next h1 =>
    refine .plain ?_ (fun e => h0 (.inl e)) (fun e => h0 (.inr e)) h
    by_cases h2 : c.toNat < 32
    · exact absurd (Or.inl h2) h1
    · exact Nat.le_of_not_lt h2

theorem jsonString_quoted (s : Str) : JsonString (Json.quoted s) s := by
  refine ⟨_, rfl, ?_⟩
  induction s with
  | nil => exact .nil
  | cons c s ih => exact jsonChars_escape c ih

theorem toDigits_head (n : Nat) : (Nat.toDigits 10 n).head? = some '0' → (Nat.toDigits 10 n).length = 1 := by
  induction n using Nat.strongRecOn with
  | _ n ih =>
    rw [Nat.toDigits_eq_if (by decide)]
    split
    · simp
    · next h =>
      intro hh
      exfalso
      have hne : Nat.toDigits 10 (n / 10) ≠ [] := Nat.toDigits_ne_nil
      rw [List.head?_append, Option.or_of_isSome (by simp [hne])] at hh
      have hl := ih (n / 10) (by omega) hh
      have hv := value_toDigits (n / 10)
      cases hd : Nat.toDigits 10 (n / 10) with
      | nil => exact hne hd
      | cons c t =>
        rw [hd] at hh hl hv
        simp at hh hl
        subst hh hl
        simp [value, digit] at hv
        omega

theorem jsonInt_itoa (n : Int) : JsonInt (itoa n) n := by
  have hd : ∀ c ∈ Nat.toDigits 10 n.natAbs, c ∈ c!"0123456789" := by
    intro c hc
    have := digits_isDigit hc
    have h2 : ∀ m : Fin 10, Char.ofNat (m.val + 48) ∈ c!"0123456789" := by decide
    simp only [Char.isDigit, Bool.and_eq_true, decide_eq_true_eq] at this
    have h3 := h2 ⟨c.toNat - 48, by
      have := this.2
      have : c.val.toNat ≤ 57 := this
      show c.val.toNat - 48 < 10
      omega⟩
    have h4 : c.toNat - 48 + 48 = c.toNat := by
      have : 48 ≤ c.val.toNat := this.1
      show c.val.toNat - 48 + 48 = c.val.toNat
      omega
    simp only [h4, Char.ofNat_toNat] at h3
    exact h3
  unfold itoa
  split
  · refine ⟨['-'], Nat.toDigits 10 n.natAbs, rfl, .inr rfl, Nat.toDigits_ne_nil, hd, toDigits_head _, ?_⟩
    rw [if_neg (by simp), value_toDigits]; omega
  · refine ⟨[], Nat.toDigits 10 n.natAbs, rfl, .inl rfl, Nat.toDigits_ne_nil, hd, toDigits_head _, ?_⟩
    rw [if_pos rfl, value_toDigits]; omega

mutual

theorem jsonValue_text : ∀ (j : Json) (d : Nat), JsonValue (text d j) j
  | .null, _ => .null
  | .bool true, _ => .true
  | .bool false, _ => .false
  | .num n, _ => by rw [text]; exact .num (jsonInt_itoa n)
  | .str s, _ => by rw [text]; exact .str (jsonString_quoted s)
  | .arr [], _ => .noItems jsonSpace_nil
  | .arr (x :: xs), d => by
    obtain ⟨t, h1, h2⟩ := jsonItems_text xs d x (jsonValue_text x (d + 1))
    rw [text, h1]
    exact .arr h2
  | .obj [], _ => .noFields jsonSpace_nil
  | .obj ((k, x) :: fs), d => by
    obtain ⟨t, h1, h2⟩ := jsonFields_text fs d k x (jsonValue_text x (d + 1))
    rw [text, h1]
    exact .obj h2

theorem jsonItems_text : ∀ (xs : List Json) (d : Nat) (x : Json), JsonValue (text (d + 1) x) x → ∃ t,
    newline (d + 1) ++ (text (d + 1) x ++ itemsText d xs) = t ++ [']'] ∧ JsonItems t (x :: xs)
  | [], d, x, hx => ⟨newline (d + 1) ++ (text (d + 1) x ++ newline d), by simp [itemsText],
      .one (jsonSpace_newline _) hx (jsonSpace_newline _)⟩
  | y :: ys, d, x, hx => by
    obtain ⟨t, h1, h2⟩ := jsonItems_text ys d y (jsonValue_text y (d + 1))
    refine ⟨newline (d + 1) ++ (text (d + 1) x ++ ([] ++ ',' :: t)), ?_,
      .more (jsonSpace_newline _) hx jsonSpace_nil h2⟩
    rw [itemsText, h1]
    simp

theorem jsonFields_text : ∀ (fs : List (Str × Json)) (d : Nat) (k : Str) (x : Json), JsonValue (text (d + 1) x) x → ∃ t,
    newline (d + 1) ++ (fieldText d (k, x) ++ fieldsText d fs) = t ++ ['}'] ∧ JsonFields t ((k, x) :: fs)
  | [], d, k, x, hx => ⟨newline (d + 1) ++ (Json.quoted k ++ ([] ++ ':' :: ([' '] ++ (text (d + 1) x ++ newline d)))),
      by simp [fieldsText, fieldText],
      .one (jsonSpace_newline _) (jsonString_quoted k) jsonSpace_nil (by intro c hc; simp at hc; exact .inl hc)
        hx (jsonSpace_newline _)⟩
  | (n, y) :: ys, d, k, x, hx => by
    obtain ⟨t, h1, h2⟩ := jsonFields_text ys d n y (jsonValue_text y (d + 1))
    refine ⟨newline (d + 1) ++ (Json.quoted k ++ ([] ++ ':' :: ([' '] ++ (text (d + 1) x ++ ([] ++ ',' :: t))))), ?_,
      .more (jsonSpace_newline _) (jsonString_quoted k) jsonSpace_nil (by intro c hc; simp at hc; exact .inl hc)
        hx jsonSpace_nil h2⟩
    rw [fieldsText, h1]
    simp [fieldText]

end

end Verif.Proofs
