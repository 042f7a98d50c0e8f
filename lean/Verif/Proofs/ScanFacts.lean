import Verif.Proofs.LexGrammar
import Verif.Spec.Position

/-!
# Facts about `Scan` and `UnScan`
-/

set_option backward.isDefEq.respectTransparency false
set_option backward.dsimp.instances true

namespace Verif

theorem utf8Size_eq (c : Char) : c.utf8Size = Spec.utf8Len c := by
  have h : ∀ n : Nat, n < 2 ^ 32 → (c.val ≤ UInt32.ofNat n ↔ c.toNat < n + 1) := by
    intro n hn
    rw [UInt32.le_iff_toNat_le, UInt32.toNat_ofNat_of_lt' (by simpa using hn)]
    show c.toNat ≤ n ↔ _
    omega
  have h1 : c.val ≤ 0x7F ↔ c.toNat < 0x80 := h 0x7F (by decide)
  have h2 : c.val ≤ 0x7FF ↔ c.toNat < 0x800 := h 0x7FF (by decide)
  have h3 : c.val ≤ 0xFFFF ↔ c.toNat < 0x10000 := h 0xFFFF (by decide)
  show (if c.val ≤ 0x7F then 1 else if c.val ≤ 0x7FF then 2 else if c.val ≤ 0xFFFF then 3 else 4) = _
  unfold Spec.utf8Len
  simp only [h1, h2, h3]

namespace SPos

theorem lastLine_snoc (t : Str) (c : Char) :
    Spec.lastLine (t ++ [c]) = if c = '\n' then [] else Spec.lastLine t ++ [c] := by
  unfold Spec.lastLine
  rw [List.reverse_append]
  by_cases h : c = '\n' <;> simp [h]

theorem advance_posAt {f pre : Str} {s : SPos} (h : s.p = Spec.posAt f pre) (c : Char) :
    (s.advance c).p = Spec.posAt f (pre ++ [c]) := by
  by_cases hc : c = '\n'
  · simp only [advance, hc, if_true, h, Spec.posAt, utf8Size_eq]
    simp [Spec.bytes, Spec.line, Spec.column, lastLine_snoc]
    omega
  · simp only [advance, hc, if_false, h, Spec.posAt, utf8Size_eq]
    simp [Spec.bytes, Spec.line, Spec.column, lastLine_snoc, hc]
    omega

theorem advanceAll_posAt {f : Str} (t : Str) : ∀ {pre : Str} {s : SPos}, s.p = Spec.posAt f pre →
    (s.advanceAll t).p = Spec.posAt f (pre ++ t) := by
  induction t with
  | nil => intro pre s h; simpa using h
  | cons c t ih =>
    intro pre s h
    rw [advanceAll_cons, ih (advance_posAt h c)]
    simp

/-- The position reached from the start of a file. -/
theorem advanceAll_new (f pre : Str) : ((SPos.new f).advanceAll pre).p = Spec.posAt f pre := by
  have := advanceAll_posAt (f := f) (s := SPos.new f) (pre := []) pre
    (by simp [Spec.posAt, Spec.bytes, Spec.line, Spec.column, Spec.lastLine, SPos.new])
  simpa using this

end SPos

namespace Scanner
open M Spec

theorem unread_all (c : Str) : ∀ (s : Scanner) (p : SPos), s.pos = p.advanceAll c →
    c.reverse.foldl (fun s ch => unread ch s) s = { s with inp := c ++ s.inp, pos := p } := by
  induction c with
  | nil => intro s p hp; simp at hp; subst hp; rfl
  | cons d t ih =>
    intro s p hp
    simp only [List.reverse_cons, List.foldl_append, List.foldl_cons, List.foldl_nil]
    rw [ih s (p.advance d) (by simpa using hp)]
    simp [unread]

/-- Undoing restores the text and the position before `raw`. -/
theorem unScan_eq {s : Scanner} {p : SPos} (hp : s.pos = p.advanceAll s.raw) :
    s.unScan = { s with inp := s.raw ++ s.inp, pos := p } :=
  unread_all s.raw s p hp

theorem withGap_raw (g : Str) (cs : List (Str × Str)) (o : LexOut) :
    (o.withGap g cs).raw = g ++ o.body := rfl

/-- What a scan consumes is a prefix of the text. -/
theorem lex_prefix (m : Mode) (t : Str) : ∃ r, t = (lex m t).raw ++ r := by
  obtain ⟨g, cs, t', h1, _, _, h⟩ := lex_cases m t
  rcases h with ⟨_, h⟩ | ⟨r, e, h2, _, h⟩ | ⟨r, h2, _, _, h⟩
  · rw [h, withGap_raw]
    cases t' with
    | nil => exact ⟨[], by rw [h1]; simp [tokenAt]⟩
    | cons c r =>
      obtain ⟨a, x, h3, h4⟩ := tokenAt_prefix m c r
      exact ⟨x, by rw [h1, h3, h4]; simp⟩
  all_goals
    rw [h, withGap_raw, h1, h2]
    obtain ⟨a, x, h3, h4⟩ := commentPiece_prefix r
    exact ⟨x, by rw [h3, h4]; simp⟩

theorem drop_raw (m : Mode) (t : Str) : t = (lex m t).raw ++ t.drop (lex m t).raw.length := by
  obtain ⟨r, h⟩ := lex_prefix m t
  generalize hk : (lex m t).raw = k at *
  subst h
  simp

@[simp] theorem after_inp (o : LexOut) (s : Scanner) : (o.after s).inp = s.inp.drop o.raw.length := rfl
@[simp] theorem after_raw (o : LexOut) (s : Scanner) : (o.after s).raw = o.raw := by
  simp [LexOut.after]
@[simp] theorem after_pos (o : LexOut) (s : Scanner) : (o.after s).pos = s.pos.advanceAll o.raw := rfl
@[simp] theorem after_mode (o : LexOut) (s : Scanner) : (o.after s).mode = s.mode := rfl
@[simp] theorem after_comments (o : LexOut) (s : Scanner) :
    (o.after s).comments = s.comments ++ o.texts s.pos := rfl

/-- Undoing a scan. -/
theorem unScan_after (s : Scanner) :
    ((lex s.mode s.inp).after s).unScan =
      { s with raw := (lex s.mode s.inp).raw
               comments := s.comments ++ (lex s.mode s.inp).texts s.pos } := by
  rw [unScan_eq (p := s.pos) (by simp)]
  have := drop_raw s.mode s.inp
  simp only [after_raw, after_inp, ← this]
  simp [LexOut.after, LexOut.state]

theorem nulFree_after {s : Scanner} (o : LexOut) (h : NulFree s.inp) : NulFree (o.after s).inp := by
  rw [after_inp]; exact h.drop _

/-! ## Tokens -/

theorem asMiscToken_cases (c : Char) :
    punctuation (asMiscToken c) = some c ∨ (asMiscToken c = .quote ∧ isQuote c = true) ∨
      asMiscToken c = .illegal := by
  by_cases h0 : c = ';'
  · subst h0; exact .inl rfl
  by_cases h1 : c = ':'
  · subst h1; exact .inl rfl
  by_cases h2 : c = '='
  · subst h2; exact .inl rfl
  by_cases h3 : c = '"'
  · subst h3; exact .inr (.inl ⟨rfl, rfl⟩)
  by_cases h4 : c = '\''
  · subst h4; exact .inr (.inl ⟨rfl, rfl⟩)
  by_cases h5 : c = '('
  · subst h5; exact .inl rfl
  by_cases h6 : c = ')'
  · subst h6; exact .inl rfl
  by_cases h7 : c = '{'
  · subst h7; exact .inl rfl
  by_cases h8 : c = '}'
  · subst h8; exact .inl rfl
  by_cases h9 : c = '['
  · subst h9; exact .inl rfl
  by_cases h10 : c = ']'
  · subst h10; exact .inl rfl
  by_cases h11 : c = '<'
  · subst h11; exact .inl rfl
  by_cases h12 : c = '>'
  · subst h12; exact .inl rfl
  by_cases h13 : c = ','
  · subst h13; exact .inl rfl
  by_cases h14 : c = '.'
  · subst h14; exact .inl rfl
  by_cases h15 : c = '-'
  · subst h15; exact .inl rfl
  by_cases h16 : c = Char.ofNat 0xFEFF
  · subst h16; exact .inl rfl
  refine .inr (.inr ?_)
  unfold asMiscToken
  rw [if_neg h0, if_neg h1, if_neg h2, if_neg h3, if_neg h4, if_neg h5, if_neg h6, if_neg h7, if_neg h8, if_neg h9, if_neg h10, if_neg h11, if_neg h12, if_neg h13, if_neg h14, if_neg h15, if_neg h16]

theorem asMiscToken_ne_eof (c : Char) : asMiscToken c ≠ .eof := by
  intro h
  rcases asMiscToken_cases c with h' | ⟨h', _⟩ | h' <;> rw [h] at h' <;> simp [punctuation] at h'

theorem punctuation_misc {t : Token} {c : Char} (h : punctuation t = some c) : asMiscToken c = t := by
  cases t <;> simp [punctuation] at h <;> subst h <;> rfl

theorem asKeywordToken_spelling {w : Str} (h : asKeywordToken w ≠ .illegal) :
    spelling (asKeywordToken w) = some w := by
  unfold asKeywordToken at h ⊢
  cases hf : keywordTable.find? (fun kv => kv.1 = w) with
  | none => rw [hf] at h; simp at h
  | some kv =>
    have h1 := List.find?_some hf
    have h2 := List.mem_of_find?_eq_some hf
    simp only [decide_eq_true_eq] at h1
    subst h1
    simp only [keywordTable, List.mem_cons, List.not_mem_nil, or_false] at h2
    repeat (first | (rcases h2 with rfl | h2; · rfl) | (subst h2; rfl))

theorem spelling_keyword {t : Token} {w : Str} (h : spelling t = some w) : asKeywordToken w = t := by
  cases t <;> simp [spelling] at h <;> subst h <;> rfl

theorem wordToken_cases (m : Mode) (w : Str) :
    wordToken m w = .boolLit ∨ wordToken m w = .floatLit ∨ wordToken m w = .ident ∨
      spelling (wordToken m w) = some w := by
  unfold wordToken
  split
  · simp
  · split
    · simp
    · split
      · next h => exact .inr (.inr (.inr (asKeywordToken_spelling h.2)))
      · simp

theorem tokenAt_eof {m : Mode} {t : Str} : (tokenAt m t).token = .eof ↔ t = [] := by
  constructor
  · intro h
    by_cases ht : t = []
    · exact ht
    · exfalso
      unfold tokenAt at h
      rw [if_neg ht] at h
      by_cases h1 : isLetter (hd t) ∨ hd t = '_'
      · rw [if_pos h1] at h
        simp only at h
        rcases wordToken_cases m (hd t :: t.tail.takeWhile isIdentChar) with h2 | h2 | h2 | h2
        all_goals rw [h] at h2; simp [spelling] at h2
      rw [if_neg h1] at h
      by_cases h2 : isQuote (hd t) ∧ m.str
      · rw [if_pos h2] at h
        unfold LexOut.ofPiece at h
        split at h <;> simp at h
      rw [if_neg h2] at h
      by_cases h3 : (isDecimalDigit (hd t) ∨ hd t = '.') ∧ m.number
      · rw [if_pos h3] at h
        unfold LexOut.ofPiece at h
        split at h
        · rcases numPiece_token t with h4 | h4 <;> simp [h4] at h
        · simp at h
      rw [if_neg h3] at h
      exact asMiscToken_ne_eof _ h
  · rintro rfl; simp [tokenAt]

end Scanner
end Verif
