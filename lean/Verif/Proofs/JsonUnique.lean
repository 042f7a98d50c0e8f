import Verif.Proofs.Json

/-!
# A JSON text denotes one value
-/

set_option backward.isDefEq.respectTransparency false
set_option backward.dsimp.instances true

namespace Verif.Proofs
open Verif Verif.Spec

/-- No digit comes first. -/
def NoDigit (r : Str) : Prop := ∀ c, r.head? = some c → c ∉ c!"0123456789"

/-- The beginnings of two equal texts that consist of certain characters, and are followed by others, are the same. -/
theorem prefix_unique (q : Char → Prop) : ∀ {a b r s : Str}, (∀ c ∈ a, q c) → (∀ c ∈ b, q c) →
    (∀ c, r.head? = some c → ¬ q c) → (∀ c, s.head? = some c → ¬ q c) → a ++ r = b ++ s → a = b ∧ r = s
  | [], [], _, _, _, _, _, _, h => ⟨rfl, h⟩
  | [], y :: b, r, s, _, hb, hr, _, h => by
    simp at h
    exact absurd (hb y (by simp)) (hr y (by simp [h]))
  | x :: a, [], r, s, ha, _, _, hs, h => by
    simp at h
    exact absurd (ha x (by simp)) (hs x (by simp [← h]))
  | x :: a, y :: b, r, s, ha, hb, hr, hs, h => by
    simp only [List.cons_append, List.cons.injEq] at h
    obtain ⟨h1, h2⟩ := prefix_unique q (fun c hc => ha c (by simp [hc])) (fun c hc => hb c (by simp [hc])) hr hs h.2
    exact ⟨by rw [h.1, h1], h2⟩

theorem short_unique {e c c' : Char}
    (h : (e, c) ∈ [('"', '"'), ('\\', '\\'), ('/', '/'), ('b', Char.ofNat 8), ('f', Char.ofNat 12), ('n', Char.ofNat 10),
      ('r', Char.ofNat 13), ('t', Char.ofNat 9)])
    (h' : (e, c') ∈ [('"', '"'), ('\\', '\\'), ('/', '/'), ('b', Char.ofNat 8), ('f', Char.ofNat 12), ('n', Char.ofNat 10),
      ('r', Char.ofNat 13), ('t', Char.ofNat 9)]) : c = c' := by
  simp only [List.mem_cons, Prod.mk.injEq, List.not_mem_nil, or_false] at h h'
  rcases h with ⟨rfl, rfl⟩ | ⟨rfl, rfl⟩ | ⟨rfl, rfl⟩ | ⟨rfl, rfl⟩ | ⟨rfl, rfl⟩ | ⟨rfl, rfl⟩ | ⟨rfl, rfl⟩ | ⟨rfl, rfl⟩ <;>
    simpa [eq_comm] using h'

theorem short_code {c : Char}
    (h : ('u', c) ∈ [('"', '"'), ('\\', '\\'), ('/', '/'), ('b', Char.ofNat 8), ('f', Char.ofNat 12), ('n', Char.ofNat 10),
      ('r', Char.ofNat 13), ('t', Char.ofNat 9)]) : False := by
  simp at h

theorem jsonChars_unique {r s : Str} (h : JsonChars r s) : ∀ {r' s' a b : Str}, JsonChars r' s' →
    r ++ '"' :: a = r' ++ '"' :: b → r = r' ∧ s = s' ∧ a = b := by
  induction h with
  | nil =>
    intro r' s' a b h' e
    cases h' with
    | nil => simpa using e
    | plain _ h2 => simp at e; exact absurd e.1.symm h2
    | short => simp at e
    | code => simp at e
  | plain h1 h2 h3 _ ih =>
    intro r' s' a b h' e
    cases h' with
    | nil => simp at e; exact absurd e.1 h2
    | plain _ _ _ h' =>
      simp only [List.cons_append, List.cons.injEq] at e
      obtain ⟨i1, i2, i3⟩ := ih h' e.2
      exact ⟨by rw [e.1, i1], by rw [e.1, i2], i3⟩
    | short => simp at e; exact absurd e.1 h3
    | code => simp at e; exact absurd e.1 h3
  | short h1 _ ih =>
    intro r' s' a b h' e
    cases h' with
    | nil => simp at e
    | plain _ _ h3 => simp at e; exact absurd e.1.symm h3
    | short h2 h' =>
      simp only [List.cons_append, List.cons.injEq, true_and] at e
      obtain ⟨i1, i2, i3⟩ := ih h' e.2
      obtain ⟨rfl, _⟩ := e
      exact ⟨by rw [i1], by rw [i2, short_unique h1 h2], i3⟩
    | code =>
      simp only [List.cons_append, List.cons.injEq, true_and] at e
      obtain ⟨rfl, _⟩ := e
      exact (short_code h1).elim
  | code h1 _ h3 _ ih =>
    intro r' s' a b h' e
    cases h' with
    | nil => simp at e
    | plain _ _ h3 => simp at e; exact absurd e.1.symm h3
    | short h2 =>
      simp only [List.cons_append, List.cons.injEq, true_and] at e
      obtain ⟨rfl, _⟩ := e
      exact (short_code h2).elim
    | code h1' _ h3' h' =>
      simp only [List.cons_append, List.cons.injEq, true_and, List.append_assoc] at e
      replace e := List.append_inj e (h1.trans h1'.symm)
      obtain ⟨rfl, e⟩ := e
      obtain ⟨i1, i2, i3⟩ := ih h' e
      have := h3.symm.trans h3'
      exact ⟨by rw [i1], by rw [i2, Char.toNat_inj.1 this], i3⟩

theorem jsonString_unique {t s t' s' a b : Str} (h : JsonString t s) (h' : JsonString t' s') (e : t ++ a = t' ++ b) :
    t = t' ∧ s = s' ∧ a = b := by
  obtain ⟨r, rfl, h⟩ := h
  obtain ⟨r', rfl, h'⟩ := h'
  simp only [List.cons_append, List.append_assoc, List.cons.injEq, true_and, List.nil_append] at e
  obtain ⟨h1, h2, h3⟩ := jsonChars_unique h h' e
  exact ⟨by rw [h1], h2, h3⟩

theorem jsonInt_unique {t t' a b : Str} {n n' : Int} (h : JsonInt t n) (h' : JsonInt t' n') (ha : NoDigit a) (hb : NoDigit b)
    (e : t ++ a = t' ++ b) : t = t' ∧ n = n' ∧ a = b := by
  obtain ⟨m, d, rfl, hm, h1, h2, _, rfl⟩ := h
  obtain ⟨m', d', rfl, hm', h1', h2', _, rfl⟩ := h'
  have hmm : m = m' := by
    have hd : ∀ {d a : Str}, d ≠ [] → (∀ c ∈ d, c ∈ c!"0123456789") → ∀ x, d ++ a = '-' :: x → False := by
      intro d a h1 h2 x e
      cases d with
      | nil => exact h1 rfl
      | cons c d =>
        simp at e
        have := h2 c (by simp)
        rw [e.1] at this
        simp at this
    rcases hm with rfl | rfl <;> rcases hm' with rfl | rfl
    · rfl
    · exact (hd h1 h2 _ (by simpa using e)).elim
    · exact (hd h1' h2' _ (by simpa using e.symm)).elim
    · rfl
  subst hmm
  rw [List.append_assoc, List.append_assoc] at e
  replace e := prefix_unique _ h2 h2' ha hb (List.append_cancel_left e)
  obtain ⟨rfl, e⟩ := e
  exact ⟨rfl, rfl, e⟩

/-- A character that is not white space. -/
theorem kind_solid {j : Json} {c : Char} (h : kind j c) : ¬ (c = ' ' ∨ c = '\t' ∨ c = '\n' ∨ c = '\r') := by
  unfold kind at h
  split at h <;> rintro (rfl | rfl | rfl | rfl) <;> simp at h

theorem jsonValue_head {t : Str} {j : Json} (h : JsonValue t j) : ∃ c r, t = c :: r ∧ kind j c := by
  cases h with
  | null => exact ⟨_, _, rfl, rfl⟩
  | true => exact ⟨_, _, rfl, rfl⟩
  | false => exact ⟨_, _, rfl, rfl⟩
  | num h =>
    obtain ⟨m, d, rfl, hm, h1, h2, _, _⟩ := h
    rcases hm with rfl | rfl
    · cases d with
      | nil => exact absurd rfl h1
      | cons c d =>
        refine ⟨c, d, rfl, .inl ?_⟩
        have := h2 c (by simp)
        simp only [List.mem_cons, List.not_mem_nil, or_false] at this
        rcases this with rfl | rfl | rfl | rfl | rfl | rfl | rfl | rfl | rfl | rfl <;> rfl
    · exact ⟨_, _, rfl, .inr rfl⟩
  | str h => obtain ⟨r, rfl, _⟩ := h; exact ⟨_, _, rfl, rfl⟩
  | noItems => exact ⟨_, _, rfl, rfl⟩
  | arr => exact ⟨_, _, rfl, rfl⟩
  | noFields => exact ⟨_, _, rfl, rfl⟩
  | obj => exact ⟨_, _, rfl, rfl⟩

/-- White space in front of something else. -/
theorem space_unique {v w a b : Str} (hv : JsonSpace v) (hw : JsonSpace w)
    (ha : ∀ c, a.head? = some c → ¬ (c = ' ' ∨ c = '\t' ∨ c = '\n' ∨ c = '\r'))
    (hb : ∀ c, b.head? = some c → ¬ (c = ' ' ∨ c = '\t' ∨ c = '\n' ∨ c = '\r')) (e : v ++ a = w ++ b) : v = w ∧ a = b :=
  prefix_unique _ hv hw ha hb e

theorem value_solid {t : Str} {j : Json} (h : JsonValue t j) (a : Str) :
    ∀ c, (t ++ a).head? = some c → ¬ (c = ' ' ∨ c = '\t' ∨ c = '\n' ∨ c = '\r') := by
  obtain ⟨c, r, rfl, hk⟩ := jsonValue_head h
  intro c' hc
  simp at hc
  subst hc
  exact kind_solid hk

theorem char_solid {d : Char} {a : Str} (h : ¬ (d = ' ' ∨ d = '\t' ∨ d = '\n' ∨ d = '\r')) :
    ∀ c, (d :: a).head? = some c → ¬ (c = ' ' ∨ c = '\t' ∨ c = '\n' ∨ c = '\r') := by
  intro c hc; simp at hc; subst hc; exact h

theorem string_solid {t s : Str} (h : JsonString t s) (a : Str) :
    ∀ c, (t ++ a).head? = some c → ¬ (c = ' ' ∨ c = '\t' ∨ c = '\n' ∨ c = '\r') := by
  obtain ⟨r, rfl, _⟩ := h
  exact char_solid (by decide)

theorem noDigit_space {w a : Str} {d : Char} (hw : JsonSpace w) (hd : d ∉ c!"0123456789") : NoDigit (w ++ d :: a) := by
  intro c hc
  cases w with
  | nil => simp at hc; subst hc; exact hd
  | cons x w =>
    simp at hc
    subst hc
    rcases hw x (by simp) with rfl | rfl | rfl | rfl <;> decide

/-- The statement about values. -/
def ValueUnique (t : Str) (j : Json) : Prop := ∀ {t' : Str} {j' : Json} {a b : Str}, JsonValue t' j' → NoDigit a → NoDigit b →
  t ++ a = t' ++ b → t = t' ∧ j = j' ∧ a = b

/-- The statement about items. -/
def ItemsUnique (t : Str) (xs : List Json) : Prop := ∀ {t' : Str} {xs' : List Json} {a b : Str}, JsonItems t' xs' →
  t ++ ']' :: a = t' ++ ']' :: b → t = t' ∧ xs = xs' ∧ a = b

/-- The statement about fields. -/
def FieldsUnique (t : Str) (xs : List (Str × Json)) : Prop := ∀ {t' : Str} {xs' : List (Str × Json)} {a b : Str},
  JsonFields t' xs' → t ++ '}' :: a = t' ++ '}' :: b → t = t' ∧ xs = xs' ∧ a = b

theorem items_solid {t : Str} {xs : List Json} (h : JsonItems t xs) : ∃ v c r, JsonSpace v ∧ t = v ++ c :: r ∧
    ¬ (c = ' ' ∨ c = '\t' ∨ c = '\n' ∨ c = '\r') ∧ c ≠ ']' := by
  have key : ∀ {t : Str} {j : Json} {v w : Str}, JsonSpace v → JsonValue t j → ∃ u c r, JsonSpace u ∧ v ++ (t ++ w) = u ++ c :: r ∧
      ¬ (c = ' ' ∨ c = '\t' ∨ c = '\n' ∨ c = '\r') ∧ c ≠ ']' := by
    intro t j v w hv hj
    obtain ⟨c, r, rfl, hk⟩ := jsonValue_head hj
    refine ⟨v, c, r ++ w, hv, by simp, kind_solid hk, ?_⟩
    rintro rfl
    unfold kind at hk
    split at hk <;> simp at hk
  cases h with
  | one hv hj _ => exact key hv hj
  | more hv hj _ _ => exact key hv hj

theorem fields_solid {t : Str} {xs : List (Str × Json)} (h : JsonFields t xs) : ∃ v r, JsonSpace v ∧ t = v ++ '"' :: r := by
  cases h with
  | one hv hk _ _ _ _ =>
    obtain ⟨r, rfl, _⟩ := hk
    exact ⟨_, _, hv, by simp only [List.cons_append]; rfl⟩
  | more hv hk _ _ _ _ _ =>
    obtain ⟨r, rfl, _⟩ := hk
    exact ⟨_, _, hv, by simp only [List.cons_append]; rfl⟩

/-- The number of a kind, and the one that a first character stands for. -/
def tag : Json → Nat
  | .null => 0
  | .bool true => 1
  | .bool false => 2
  | .str _ => 3
  | .arr _ => 4
  | .obj _ => 5
  | .num _ => 6

def tagOf (c : Char) : Nat :=
  if c = 'n' then 0 else if c = 't' then 1 else if c = 'f' then 2 else if c = '"' then 3 else if c = '[' then 4
  else if c = '{' then 5 else 6

theorem tag_kind {j : Json} {c : Char} (h : kind j c) : tag j = tagOf c := by
  unfold kind at h
  split at h
  iterate 3 (subst h; rfl)
  · have hd : ∀ c ∈ c!"ntf\"[{", ¬ (c.isDigit = true ∨ c = '-') := by decide
    unfold tagOf
    repeat rw [if_neg (by rintro rfl; exact absurd h (hd _ (by decide)))]
    rfl
  iterate 3 (subst h; rfl)

theorem key_char {j j' : Json} {c : Char} (h : kind j c) (h' : kind j' c) : tag j = tag j' :=
  (tag_kind h).trans (tag_kind h').symm

mutual

theorem value_unique {t : Str} {j : Json} (h : JsonValue t j) : ValueUnique t j := by
  intro t' j' a b h' ha hb e
  have hk : ∃ c, kind j c ∧ kind j' c := by
    obtain ⟨c, r, rfl, hk⟩ := jsonValue_head h
    obtain ⟨c', r', rfl, hk'⟩ := jsonValue_head h'
    simp at e
    exact ⟨c, hk, e.1 ▸ hk'⟩
  obtain ⟨c, hk, hk'⟩ := hk
  have hm := key_char hk hk'
  match h with
  | .null => cases h' <;> simp [tag] at hm; exact ⟨rfl, rfl, List.append_cancel_left e⟩
  | .true => cases h' <;> simp [tag] at hm; exact ⟨rfl, rfl, List.append_cancel_left e⟩
  | .false => cases h' <;> simp [tag] at hm; exact ⟨rfl, rfl, List.append_cancel_left e⟩
  | .num hn =>
    cases h' <;> simp [tag] at hm
    next hn' =>
      obtain ⟨h1, h2, h3⟩ := jsonInt_unique hn hn' ha hb e
      exact ⟨h1, by rw [h2], h3⟩
  | .str hs =>
    cases h' <;> simp [tag] at hm
    next hs' =>
      obtain ⟨h1, h2, h3⟩ := jsonString_unique hs hs' e
      exact ⟨h1, by rw [h2], h3⟩
  | .noItems hw =>
    cases h' <;> simp [tag] at hm
    · next hw' =>
      simp only [List.cons_append, List.append_assoc, List.cons.injEq, true_and, List.nil_append] at e
      replace e := space_unique hw hw' (char_solid (by decide)) (char_solid (by decide)) e
      obtain ⟨rfl, e⟩ := e
      simp at e
      exact ⟨rfl, rfl, e⟩
    · next hi =>
      obtain ⟨v, c, r, hv, rfl, h1, h2⟩ := items_solid hi
      simp only [List.cons_append, List.append_assoc, List.cons.injEq, true_and, List.nil_append] at e
      replace e := space_unique hw hv (char_solid (by decide)) (char_solid h1) e
      obtain ⟨rfl, e⟩ := e
      simp at e
      exact absurd e.1.symm h2
  | .arr hi =>
    cases h' <;> simp [tag] at hm
    · next hw =>
      obtain ⟨v, c, r, hv, rfl, h1, h2⟩ := items_solid hi
      simp only [List.cons_append, List.append_assoc, List.cons.injEq, true_and, List.nil_append] at e
      replace e := space_unique hv hw (char_solid h1) (char_solid (by decide)) e
      obtain ⟨rfl, e⟩ := e
      simp at e
      exact absurd e.1 h2
    · next hi' =>
      simp only [List.cons_append, List.append_assoc, List.cons.injEq, true_and, List.nil_append] at e
      obtain ⟨h1, h2, h3⟩ := items_unique hi hi' e
      exact ⟨by rw [h1], by rw [h2], h3⟩
  | .noFields hw =>
    cases h' <;> simp [tag] at hm
    · next hw' =>
      simp only [List.cons_append, List.append_assoc, List.cons.injEq, true_and, List.nil_append] at e
      replace e := space_unique hw hw' (char_solid (by decide)) (char_solid (by decide)) e
      obtain ⟨rfl, e⟩ := e
      simp at e
      exact ⟨rfl, rfl, e⟩
    · next hi =>
      obtain ⟨v, r, hv, rfl⟩ := fields_solid hi
      simp only [List.cons_append, List.append_assoc, List.cons.injEq, true_and, List.nil_append] at e
      replace e := space_unique hw hv (char_solid (by decide)) (char_solid (by decide)) e
      obtain ⟨rfl, e⟩ := e
      simp at e
  | .obj hi =>
    cases h' <;> simp [tag] at hm
    · next hw =>
      obtain ⟨v, r, hv, rfl⟩ := fields_solid hi
      simp only [List.cons_append, List.append_assoc, List.cons.injEq, true_and, List.nil_append] at e
      replace e := space_unique hv hw (char_solid (by decide)) (char_solid (by decide)) e
      obtain ⟨rfl, e⟩ := e
      simp at e
    · next hi' =>
      simp only [List.cons_append, List.append_assoc, List.cons.injEq, true_and, List.nil_append] at e
      obtain ⟨h1, h2, h3⟩ := fields_unique hi hi' e
      exact ⟨by rw [h1], by rw [h2], h3⟩

theorem items_unique {t : Str} {xs : List Json} (h : JsonItems t xs) : ItemsUnique t xs := by
  intro t' xs' a b h' e
  match h with
  | .one hv hj hw =>
    cases h' with
    | one hv' hj' hw' =>
      simp only [List.append_assoc] at e
      replace e := space_unique hv hv' (value_solid hj _) (value_solid hj' _) e
      obtain ⟨rfl, e⟩ := e
      replace e := value_unique hj hj' (noDigit_space hw (by decide)) (noDigit_space hw' (by decide)) e
      obtain ⟨rfl, rfl, e⟩ := e
      replace e := space_unique hw hw' (char_solid (by decide)) (char_solid (by decide)) e
      obtain ⟨rfl, e⟩ := e
      simp at e
      exact ⟨rfl, rfl, e⟩
    | more hv' hj' hw' _ =>
      simp only [List.append_assoc, List.cons_append] at e
      replace e := space_unique hv hv' (value_solid hj _) (value_solid hj' _) e
      obtain ⟨rfl, e⟩ := e
      replace e := value_unique hj hj' (noDigit_space hw (by decide)) (noDigit_space hw' (by decide)) e
      obtain ⟨rfl, rfl, e⟩ := e
      replace e := space_unique hw hw' (char_solid (by decide)) (char_solid (by decide)) e
      obtain ⟨rfl, e⟩ := e
      simp at e
  | .more hv hj hw hr =>
    cases h' with
    | one hv' hj' hw' =>
      simp only [List.append_assoc, List.cons_append] at e
      replace e := space_unique hv hv' (value_solid hj _) (value_solid hj' _) e
      obtain ⟨rfl, e⟩ := e
      replace e := value_unique hj hj' (noDigit_space hw (by decide)) (noDigit_space hw' (by decide)) e
      obtain ⟨rfl, rfl, e⟩ := e
      replace e := space_unique hw hw' (char_solid (by decide)) (char_solid (by decide)) e
      obtain ⟨rfl, e⟩ := e
      simp at e
    | more hv' hj' hw' hr' =>
      simp only [List.append_assoc, List.cons_append] at e
      replace e := space_unique hv hv' (value_solid hj _) (value_solid hj' _) e
      obtain ⟨rfl, e⟩ := e
      replace e := value_unique hj hj' (noDigit_space hw (by decide)) (noDigit_space hw' (by decide)) e
      obtain ⟨rfl, rfl, e⟩ := e
      replace e := space_unique hw hw' (char_solid (by decide)) (char_solid (by decide)) e
      obtain ⟨rfl, e⟩ := e
      simp only [List.cons.injEq, true_and] at e
      obtain ⟨h1, h2, h3⟩ := items_unique hr hr' e
      exact ⟨by rw [h1], by rw [h2], h3⟩

theorem fields_unique {t : Str} {xs : List (Str × Json)} (h : JsonFields t xs) : FieldsUnique t xs := by
  intro t' xs' a b h' e
  match h with
  | .one hv hk hu hs hj hw =>
    cases h' with
    | one hv' hk' hu' hs' hj' hw' =>
      simp only [List.append_assoc, List.cons_append] at e
      replace e := space_unique hv hv' (string_solid hk _) (string_solid hk' _) e
      obtain ⟨rfl, e⟩ := e
      replace e := jsonString_unique hk hk' e
      obtain ⟨rfl, rfl, e⟩ := e
      replace e := space_unique hu hu' (char_solid (by decide)) (char_solid (by decide)) e
      obtain ⟨rfl, e⟩ := e
      simp only [List.cons.injEq, true_and] at e
      replace e := space_unique hs hs' (value_solid hj _) (value_solid hj' _) e
      obtain ⟨rfl, e⟩ := e
      replace e := value_unique hj hj' (noDigit_space hw (by decide)) (noDigit_space hw' (by decide)) e
      obtain ⟨rfl, rfl, e⟩ := e
      replace e := space_unique hw hw' (char_solid (by decide)) (char_solid (by decide)) e
      obtain ⟨rfl, e⟩ := e
      simp at e
      exact ⟨rfl, rfl, e⟩
    | more hv' hk' hu' hs' hj' hw' _ =>
      simp only [List.append_assoc, List.cons_append] at e
      replace e := space_unique hv hv' (string_solid hk _) (string_solid hk' _) e
      obtain ⟨rfl, e⟩ := e
      replace e := jsonString_unique hk hk' e
      obtain ⟨rfl, rfl, e⟩ := e
      replace e := space_unique hu hu' (char_solid (by decide)) (char_solid (by decide)) e
      obtain ⟨rfl, e⟩ := e
      simp only [List.cons.injEq, true_and] at e
      replace e := space_unique hs hs' (value_solid hj _) (value_solid hj' _) e
      obtain ⟨rfl, e⟩ := e
      replace e := value_unique hj hj' (noDigit_space hw (by decide)) (noDigit_space hw' (by decide)) e
      obtain ⟨rfl, rfl, e⟩ := e
      replace e := space_unique hw hw' (char_solid (by decide)) (char_solid (by decide)) e
      obtain ⟨rfl, e⟩ := e
      simp at e
  | .more hv hk hu hs hj hw hr =>
    cases h' with
    | one hv' hk' hu' hs' hj' hw' =>
      simp only [List.append_assoc, List.cons_append] at e
      replace e := space_unique hv hv' (string_solid hk _) (string_solid hk' _) e
      obtain ⟨rfl, e⟩ := e
      replace e := jsonString_unique hk hk' e
      obtain ⟨rfl, rfl, e⟩ := e
      replace e := space_unique hu hu' (char_solid (by decide)) (char_solid (by decide)) e
      obtain ⟨rfl, e⟩ := e
      simp only [List.cons.injEq, true_and] at e
      replace e := space_unique hs hs' (value_solid hj _) (value_solid hj' _) e
      obtain ⟨rfl, e⟩ := e
      replace e := value_unique hj hj' (noDigit_space hw (by decide)) (noDigit_space hw' (by decide)) e
      obtain ⟨rfl, rfl, e⟩ := e
      replace e := space_unique hw hw' (char_solid (by decide)) (char_solid (by decide)) e
      obtain ⟨rfl, e⟩ := e
      simp at e
    | more hv' hk' hu' hs' hj' hw' hr' =>
      simp only [List.append_assoc, List.cons_append] at e
      replace e := space_unique hv hv' (string_solid hk _) (string_solid hk' _) e
      obtain ⟨rfl, e⟩ := e
      replace e := jsonString_unique hk hk' e
      obtain ⟨rfl, rfl, e⟩ := e
      replace e := space_unique hu hu' (char_solid (by decide)) (char_solid (by decide)) e
      obtain ⟨rfl, e⟩ := e
      simp only [List.cons.injEq, true_and] at e
      replace e := space_unique hs hs' (value_solid hj _) (value_solid hj' _) e
      obtain ⟨rfl, e⟩ := e
      replace e := value_unique hj hj' (noDigit_space hw (by decide)) (noDigit_space hw' (by decide)) e
      obtain ⟨rfl, rfl, e⟩ := e
      replace e := space_unique hw hw' (char_solid (by decide)) (char_solid (by decide)) e
      obtain ⟨rfl, e⟩ := e
      simp only [List.cons.injEq, true_and] at e
      obtain ⟨h1, h2, h3⟩ := fields_unique hr hr' e
      exact ⟨by rw [h1], by rw [h2], h3⟩

end

/-- A text denotes at most one value. -/
theorem jsonValue_unique {t : Str} {j j' : Json} (h : JsonValue t j) (h' : JsonValue t j') : j = j' :=
  (value_unique h h' (a := []) (b := []) (by intro c hc; simp at hc) (by intro c hc; simp at hc) rfl).2.1

end Verif.Proofs
