import Verif.Model.Format
import Verif.Spec.Format
import Verif.Spec.Position

/-!
# The texts of positions and errors (C54, C55)
-/

set_option backward.isDefEq.respectTransparency false
set_option backward.dsimp.instances true

namespace Verif.Props
open Spec

/-! ## Numbers -/

theorem digit_digitChar {d : Nat} (h : d < 16) : digit d.digitChar = d := by
  have : ∀ d : Fin 16, digit d.val.digitChar = d.val := by decide
  exact this ⟨d, h⟩

theorem value_snoc (b : Nat) (s : Str) (c : Char) : value b (s ++ [c]) = value b s * b + digit c := by
  simp [value, List.foldl_append]

theorem value_toDigits (n : Nat) : value 10 (Nat.toDigits 10 n) = n := by
  induction n using Nat.strongRecOn with
  | _ n ih =>
    rw [Nat.toDigits_eq_if (by decide)]
    split
    · rw [show [n.digitChar] = [] ++ [n.digitChar] from rfl, value_snoc, digit_digitChar (by omega)]
      simp [value]
    · rw [value_snoc, ih _ (by omega), digit_digitChar (by omega)]
      omega

theorem digits_isDigit {n : Nat} {c : Char} (h : c ∈ Nat.toDigits 10 n) : c.isDigit = true :=
  Nat.isDigit_of_mem_toDigits (by decide) (by decide) h

theorem decimal_itoa (n : Int) : decimal (itoa n) = n := by
  unfold itoa
  split
  · simp only [decimal, value_toDigits]; omega
  · have : decimal (Nat.toDigits 10 n.natAbs) = value 10 (Nat.toDigits 10 n.natAbs) := by
      unfold decimal
      split
      · next s h =>
        have := digits_isDigit (n := n.natAbs) (c := '-') (by rw [h]; simp)
        simp at this
      · rfl
    rw [this, value_toDigits]
    omega

theorem itoa_inj {m n : Int} (h : itoa m = itoa n) : m = n := by
  rw [← decimal_itoa m, h, decimal_itoa]

/-- A decimal number has no colon, comma or parenthesis. -/
theorem itoa_chars {n : Int} {c : Char} (h : c ∈ itoa n) : c.isDigit = true ∨ c = '-' := by
  unfold itoa at h
  split at h
  · rcases List.mem_cons.1 h with h | h
    · exact .inr h
    · exact .inl (digits_isDigit h)
  · exact .inl (digits_isDigit h)

/-! ## C54: positions -/

/-- Cutting at the last occurrence of a character that is not in the tails. -/
theorem cut_last {x : Char} {a b s t : Str} (hs : x ∉ s) (ht : x ∉ t) (h : a ++ x :: s = b ++ x :: t) :
    a = b ∧ s = t := by
  rcases List.append_eq_append_iff.1 h with ⟨d, h1, h2⟩ | ⟨d, h1, h2⟩
  · cases d with
    | nil => simp at h1 h2; exact ⟨h1.symm, h2⟩
    | cons y d =>
      simp only [List.cons_append, List.cons.injEq] at h2
      exact absurd (h2.2 ▸ by simp) hs
  · cases d with
    | nil => simp at h1 h2; exact ⟨h1, h2.symm⟩
    | cons y d =>
      simp only [List.cons_append, List.cons.injEq] at h2
      exact absurd (h2.2 ▸ by simp) ht

theorem no_colon (n : Int) : ':' ∉ itoa n := by
  intro h
  rcases itoa_chars h with h | h <;> simp at h

/-- C54: two positions have the same text exactly if they have the same line, column and file name,
where no name is the name `<input>`. -/
theorem position_text (p q : Position) :
    p.string = q.string ↔ shownName p = shownName q ∧ p.line = q.line ∧ p.column = q.column := by
  constructor
  · intro h
    simp only [Position.string, List.append_assoc] at h
    have h' : (shownName p ++ ':' :: itoa p.line) ++ ':' :: itoa p.column =
        (shownName q ++ ':' :: itoa q.line) ++ ':' :: itoa q.column := by simpa [shownName] using h
    obtain ⟨h1, h2⟩ := cut_last (no_colon _) (no_colon _) h'
    obtain ⟨h3, h4⟩ := cut_last (no_colon _) (no_colon _) h1
    exact ⟨h3, itoa_inj h4, itoa_inj h2⟩
  · rintro ⟨h1, h2, h3⟩
    unfold shownName at h1
    unfold Position.string
    rw [h1, h2, h3]

theorem line_append (a d : Str) : line (a ++ d) = line a + d.count '\n' := by
  simp [line, List.count_append]; omega

theorem column_append {a d : Str} (h : '\n' ∉ d) : column (a ++ d) = column a + d.length := by
  have h1 : ∀ x ∈ d.reverse, (decide (x ≠ '\n')) = true := by
    intro x hx
    simp only [decide_eq_true_eq]
    rintro rfl
    exact h (List.mem_reverse.1 hx)
  simp only [column, lastLine, List.reverse_append, List.takeWhile_append_of_pos h1, List.length_reverse,
    List.length_append]
  omega

/-- C54: the positions of two places of one text have different texts. -/
theorem position_text_unique {f input a b s t : Str} (ha : a ++ s = input) (hb : b ++ t = input)
    (h : (posAt f a).string = (posAt f b).string) : a = b := by
  obtain ⟨_, h1, h2⟩ := (position_text _ _).1 h
  simp only [posAt, Int.natCast_inj] at h1 h2
  have key : ∀ {a b : Str}, (∃ d, b = a ++ d) → line a = line b → column a = column b → a = b := by
    rintro a _ ⟨d, rfl⟩ h1 h2
    rw [line_append] at h1
    have hd : '\n' ∉ d := List.count_eq_zero.1 (by omega)
    rw [column_append hd] at h2
    have : d = [] := List.eq_nil_of_length_eq_zero (by omega)
    simp [this]
  rcases List.append_eq_append_iff.1 (ha.trans hb.symm) with ⟨d, h3, _⟩ | ⟨d, h3, _⟩
  · exact key ⟨d, h3⟩ h1 h2
  · exact (key ⟨d, h3⟩ h1.symm h2.symm).symm

example : (posAt c!"a:1" c!"x\nyz").string = c!"a:1:2:3" ∧ (posAt [] []).string = c!"<input>:1:1" := by
  decide +kernel

/-! ## Quoted strings -/

theorem hex_length (k n : Nat) : (hex k n).length = k := by
  induction k generalizing n with
  | zero => rfl
  | succ k ih => simp [hex, ih]

theorem hex_value (k : Nat) : ∀ n, n < 16 ^ k → value 16 (hex k n) = n := by
  induction k with
  | zero => intro n h; simp [hex, value] at *; omega
  | succ k ih =>
    intro n h
    rw [hex, value_snoc, ih _ (by rw [Nat.pow_succ] at h; omega), digit_digitChar (by omega)]
    omega

theorem hex_read {k n : Nat} (h : n < 16 ^ k) (s : Str) :
    value 16 ((hex k n ++ s).take k) = n ∧ (hex k n ++ s).drop k = s := by
  have hl := hex_length k n
  constructor
  · rw [List.take_append_of_le_length (by omega), List.take_of_length_le (by omega), hex_value k n h]
  · rw [List.drop_append_of_le_length (by omega), List.drop_of_length_le (by omega)]; rfl

theorem char_lt (c : Char) : c.toNat < 0x110000 := by
  have := c.valid
  unfold UInt32.isValidChar Nat.isValidChar at this
  show c.val.toNat < _
  omega

theorem unescape_plain {c : Char} (h : c ≠ '\\') (s : Str) : unescape (c :: s) = some (c, s) := by
  unfold unescape
  split <;> first | contradiction | simp_all

/-- What `%q` writes for a character is read back as this character. -/
theorem unescape_escape (isPrint : Char → Bool) (c : Char) (s : Str) :
    unescape (escape isPrint c ++ s) = some (c, s) := by
  unfold escape
  split
  · next h => rcases h with rfl | rfl <;> rfl
  split
  · next h _ => exact unescape_plain (by intro hc; exact h (.inr hc)) s
  split
  · next h => subst h; rfl
  split
  · next h => subst h; rfl
  split
  · next h => subst h; rfl
  split
  · next h => subst h; rfl
  split
  · next h => subst h; rfl
  split
  · next h => subst h; rfl
  split
  · next h => subst h; rfl
  split
  · next h =>
    have := hex_read (k := 2) (n := c.toNat) (by omega) s
    simp only [List.cons_append, unescape, this.1, this.2, Char.ofNat_toNat]
  split
  · next h =>
    have := hex_read (k := 4) (n := c.toNat) (by omega) s
    simp only [List.cons_append, unescape, this.1, this.2, Char.ofNat_toNat]
  · have hc := char_lt c
    have := hex_read (k := 8) (n := c.toNat) (by omega) s
    simp only [List.cons_append, unescape, this.1, this.2, Char.ofNat_toNat]

theorem escape_head (isPrint : Char → Bool) (c : Char) (s : Str) : (escape isPrint c ++ s).head? ≠ some '"' := by
  unfold escape
  split
  · simp
  split
  · next h _ => simp only [List.cons_append, List.head?_cons, ne_eq, Option.some.injEq]; exact fun hc => h (.inl hc)
  repeat' split
  all_goals simp

theorem escaped_inj (isPrint : Char → Bool) : ∀ {s t a b : Str},
    s.flatMap (escape isPrint) ++ '"' :: a = t.flatMap (escape isPrint) ++ '"' :: b → s = t ∧ a = b
  | [], [], _, _, h => by simpa using h
  | [], d :: t, a, b, h => by
    have := escape_head isPrint d (t.flatMap (escape isPrint) ++ '"' :: b)
    rw [← List.append_assoc, ← List.flatMap_cons, ← h] at this
    simp at this
  | c :: s, [], a, b, h => by
    have := escape_head isPrint c (s.flatMap (escape isPrint) ++ '"' :: a)
    rw [← List.append_assoc, ← List.flatMap_cons, h] at this
    simp at this
  | c :: s, d :: t, a, b, h => by
    have h1 := unescape_escape isPrint c (s.flatMap (escape isPrint) ++ '"' :: a)
    have h2 := unescape_escape isPrint d (t.flatMap (escape isPrint) ++ '"' :: b)
    simp only [List.flatMap_cons, List.append_assoc] at h
    rw [h, h2] at h1
    simp only [Option.some.injEq, Prod.mk.injEq] at h1
    obtain ⟨h3, h4⟩ := escaped_inj isPrint h1.2.symm
    exact ⟨by rw [h1.1, h3], h4⟩

/-- A quoted string at the start of a text determines the string and where the text goes on. -/
theorem quoted_inj (isPrint : Char → Bool) {s t a b : Str} (h : quoted isPrint s ++ a = quoted isPrint t ++ b) :
    s = t ∧ a = b := by
  simp only [quoted, List.cons_append, List.append_assoc, List.nil_append, List.cons.injEq, true_and] at h
  exact escaped_inj isPrint h

/-! ## C55: errors -/

theorem errorText_found (isPrint : Char → Bool) {f f' e e' o o' r r' : Str} {n n' : Int}
    (h : errorText isPrint f e o n ++ r = errorText isPrint f' e' o' n' ++ r') : f = f' := by
  have : ∀ (f e o : Str) (n : Int) (r : Str), ∃ x, errorText isPrint f e o n ++ r = c!"found " ++ (quoted isPrint f ++ x) := by
    intro f e o n r
    unfold errorText
    split
    · exact ⟨c!" but expected [" ++ (e ++ c!"]") ++ r, by simp only [List.append_assoc]⟩
    · exact ⟨c!" but expected [" ++ (e ++ (c!"] at " ++ (o ++ (c!":" ++ itoa n)))) ++ r,
        by simp only [List.append_assoc]⟩
  obtain ⟨x, hx⟩ := this f e o n r
  obtain ⟨y, hy⟩ := this f' e' o' n' r'
  rw [hx, hy] at h
  exact (quoted_inj isPrint (List.append_cancel_left h)).1

/-- The text of an error starts with the text of its first fault. -/
theorem errText_first {isPrint : Char → Bool} {d : Bool} {e : Err} {s : Str} (h : ErrText isPrint d e s) :
    ∃ o n r, s = errorText isPrint ((firstFault e).2.2.string isPrint) (firstFault e).2.1.toList o n ++ r := by
  induction h with
  | single pos ex f o n _ => exact ⟨o, n, [], by simp [firstFault]⟩
  | pair a b s t _ _ ih _ =>
    obtain ⟨o, n, r, rfl⟩ := ih
    exact ⟨o, n, r ++ (c!":" ++ t), by simp [firstFault]⟩

/-- C55: errors with the same text have found the same, wherever they were raised. -/
theorem error_text_found {isPrint : Char → Bool} {d d' : Bool} {e e' : Err} {s : Str} (h : ErrText isPrint d e s)
    (h' : ErrText isPrint d' e' s) :
    (firstFault e).2.2.string isPrint = (firstFault e').2.2.string isPrint := by
  obtain ⟨o, n, r, h1⟩ := errText_first h
  obtain ⟨o', n', r', h2⟩ := errText_first h'
  exact errorText_found isPrint (h1.symm.trans h2)

theorem token_code_inj {t t' : Token} (h : t.ctorIdx = t'.ctorIdx) : t = t' := by
  rw [← Token.ofNat_ctorIdx t, h, Token.ofNat_ctorIdx]

theorem no_comma (n : Int) : ',' ∉ itoa n := by
  intro h
  rcases itoa_chars h with h | h <;> simp at h

theorem cut_first {x : Char} {a b s t : Str} (ha : x ∉ a) (hb : x ∉ b) (h : a ++ x :: s = b ++ x :: t) :
    a = b ∧ s = t := by
  have h1 := cut_last (a := s.reverse) (b := t.reverse) (s := a.reverse) (t := b.reverse) (x := x)
    (by simpa using ha) (by simpa using hb) (by simpa using congrArg List.reverse h)
  exact ⟨by simpa using congrArg List.reverse h1.2, by simpa using congrArg List.reverse h1.1⟩

/-- C55: and if the faults are at tokens, these have the same text, kind, line, column and file name. -/
theorem found_text {isPrint : Char → Bool} {t t' : Str} {k k' : Token} {p p' : Position}
    (h : (Found.token t k p).string isPrint = (Found.token t' k' p').string isPrint) :
    t = t' ∧ k = k' ∧ shownName p = shownName p' ∧ p.line = p'.line ∧ p.column = p'.column := by
  simp only [Found.string] at h
  obtain ⟨h1, h2⟩ := quoted_inj isPrint h
  have h3 := List.append_cancel_left h2
  obtain ⟨h4, h5⟩ := cut_first (x := ',') (no_comma _) (no_comma _) h3
  have h6 := itoa_inj h4
  have h7 : p.string = p'.string := List.append_cancel_right (List.append_cancel_left (as := c!" Pos=") h5)
  exact ⟨h1, token_code_inj (by omega), (position_text _ _).1 h7⟩

/-- What the text of a single error begins with. -/
def fault (isPrint : Char → Bool) (found expected : Str) : Str :=
  c!"found " ++ quoted isPrint found ++ c!" but expected [" ++ expected ++ c!"]"

/-- C42, C55: the text of a single error tells what was found and what was expected, and behind it the place in the
Go source; only an error of the lexer outside of the debug mode has no place.  The debug mode changes nothing else. -/
theorem error_text_place {isPrint : Char → Bool} {debug : Bool} {pos : Position} {expected : String} {found : Found}
    {s : Str} (h : ErrText isPrint debug (.single pos expected found) s) :
    (s = fault isPrint (found.string isPrint) expected.toList ∧ debug = false ∧ ∃ t, found = .text t) ∨
    (∃ file line, 0 < line ∧
      s = fault isPrint (found.string isPrint) expected.toList ++ (c!" at " ++ file ++ c!":" ++ itoa line) ∧
      ((∃ t, found = .text t) → debug = true)) := by
  cases h with
  | single _ _ _ o n hr =>
    by_cases h0 : 0 < n
    · refine .inr ⟨o, n, h0, ?_, ?_⟩
      · have : ¬ (n = 0 ∧ o = []) := fun h => by omega
        simp [errorText, this, fault]
      · rintro ⟨t, rfl⟩
        cases debug with
        | true => rfl
        | false => simp only [Raised] at hr; simp at hr; omega
    · cases found with
      | rune _ => exact absurd hr h0
      | token _ _ _ => exact absurd hr h0
      | text t =>
        cases debug with
        | true => exact absurd hr (by simpa [Raised] using h0)
        | false =>
          have hr : o = [] ∧ n = 0 := by simpa [Raised] using hr
          obtain ⟨rfl, rfl⟩ := hr
          exact .inl ⟨by simp [errorText, fault], rfl, t, rfl⟩

/-- All faults of the error were raised by the parser or the scanner. -/
def AboveLexer : Err → Prop
  | .single _ _ found => ∀ t, found ≠ .text t
  | .pair a b => AboveLexer a ∧ AboveLexer b

/-- C42: an error without a fault raised in the lexer has the same text in both modes. -/
theorem debug_text_same {isPrint : Char → Bool} {d d' : Bool} {e : Err} (he : AboveLexer e) {s : Str}
    (h : ErrText isPrint d e s) : ErrText isPrint d' e s := by
  induction h with
  | single pos ex f o n hr =>
    refine .single _ _ _ _ _ ?_
    cases f with
    | rune _ => exact hr
    | token _ _ _ => exact hr
    | text t => exact absurd rfl (he t)
  | pair a b s t _ _ iha ihb => exact .pair _ _ _ _ (iha he.1) (ihb he.2)

example : AboveLexer (.pair (.single {} "ident" (.token c!"1" .intLit {})) (.single {} "quote" (.rune 'x'))) :=
  ⟨(nofun), (nofun)⟩

/-- `strconv.Quote` on control characters, DEL, and runes that are not printable. -/
example : quoted (fun c => 32 ≤ c.toNat && c.toNat < 127) [Char.ofNat 127, Char.ofNat 31, '\t', 'é', '😀', '~'] =
    c!"\"\\x7f\\x1f\\t\\u00e9\\U0001f600~\"" := by decide +kernel

/-- A pair of errors with its text; the found text holds a newline, a quote and a control character. -/
example : ErrText (fun c => 32 ≤ c.toNat) false
    (.pair (.single {} "ident" (.token c!"\"\n" .strLit { offset := 9, line := 1, column := 10 }))
      (.single {} ";" (.text [Char.ofNat 1])))
    c!"found \"\\\"\\\\\\\"\\\\n\\\"(Token=6, Pos=<input>:1:10)\" but expected [ident] at field.go:12:found \"\\x01\" but expected [;]" := by
  have h1 := ErrText.single (isPrint := fun c => 32 ≤ c.toNat) (debug := false) {} "ident"
    (.token c!"\"\n" .strLit { offset := 9, line := 1, column := 10 }) c!"field.go" 12 (show (0 : Int) < 12 by decide)
  have h2 := ErrText.single (isPrint := fun c => 32 ≤ c.toNat) (debug := false) {} ";" (.text [Char.ofNat 1]) [] 0 ⟨rfl, rfl⟩
  have h := ErrText.pair _ _ _ _ h1 h2
  have e : errorText (fun c => 32 ≤ c.toNat) (Found.string (fun c => 32 ≤ c.toNat)
        (.token c!"\"\n" .strLit { offset := 9, line := 1, column := 10 })) "ident".toList c!"field.go" 12 ++
      (c!":" ++ errorText (fun c => 32 ≤ c.toNat) (Found.string (fun c => 32 ≤ c.toNat) (.text [Char.ofNat 1])) ";".toList [] 0) =
    c!"found \"\\\"\\\\\\\"\\\\n\\\"(Token=6, Pos=<input>:1:10)\" but expected [ident] at field.go:12:found \"\\x01\" but expected [;]" := by
    decide +kernel
  rw [← e]
  exact h

end Verif.Props
