import Verif.Proofs.ScanFacts
import Verif.Spec.Lexeme

/-!
# `Scan` finds a lexeme
-/

set_option backward.isDefEq.respectTransparency false
set_option backward.dsimp.instances true

namespace Verif
namespace Scanner
open M Spec

theorem spelling_ne_illegal {t : Token} {w : Str} (h : spelling t = some w) : t ≠ .illegal := by
  rintro rfl; simp [spelling] at h

theorem keyword_iff {w : Str} : asKeywordToken w ≠ .illegal ↔ ∃ t, spelling t = some w := by
  constructor
  · intro h; exact ⟨_, asKeywordToken_spelling h⟩
  · rintro ⟨t, h⟩; rw [spelling_keyword h]; exact spelling_ne_illegal h

theorem isBoolLit_iff {w : Str} : isBoolLit w = true ↔ w = c!"true" ∨ w = c!"false" := by
  simp [isBoolLit]

theorem isFloatLitKeyword_iff {w : Str} : isFloatLitKeyword w = true ↔ w = c!"inf" ∨ w = c!"nan" := by
  simp [isFloatLitKeyword]

theorem wordToken_class (m : Mode) (w : Str) : WordClass m w (wordToken m w) := by
  unfold wordToken
  by_cases h1 : m.bool ∧ isBoolLit w
  · rw [if_pos h1]; exact .bool h1.1 (isBoolLit_iff.1 h1.2)
  rw [if_neg h1]
  by_cases h2 : m.number ∧ isFloatLitKeyword w
  · rw [if_pos h2]; exact .float h2.1 (isFloatLitKeyword_iff.1 h2.2)
  rw [if_neg h2]
  by_cases h3 : m.keyword ∧ asKeywordToken w ≠ .illegal
  · rw [if_pos h3]; exact .keyword _ h3.1 (asKeywordToken_spelling h3.2)
  rw [if_neg h3]
  exact .ident (fun h => h1 ⟨h.1, isBoolLit_iff.2 h.2⟩)
    (fun h => h2 ⟨h.1, isFloatLitKeyword_iff.2 h.2⟩) (fun h => h3 ⟨h.1, keyword_iff.2 h.2⟩)

/-- The class of a word is unique. -/
theorem wordClass_unique {m : Mode} {w : Str} {t : Token} (h : WordClass m w t) :
    wordToken m w = t := by
  have hk : ∀ t, spelling t = some w → ¬ isBoolLit w = true ∧ ¬ isFloatLitKeyword w = true := by
    intro t ht
    constructor
    · intro hb
      rcases isBoolLit_iff.1 hb with rfl | rfl <;> exact absurd ht (by cases t <;> simp [spelling])
    · intro hb
      rcases isFloatLitKeyword_iff.1 hb with rfl | rfl <;>
        exact absurd ht (by cases t <;> simp [spelling])
  unfold wordToken
  cases h with
  | bool hm hw => rw [if_pos ⟨hm, isBoolLit_iff.2 hw⟩]
  | float hm hw =>
    rw [if_neg, if_pos ⟨hm, isFloatLitKeyword_iff.2 hw⟩]
    rintro ⟨_, hb⟩
    rcases hw with rfl | rfl <;> exact absurd hb (by decide)
  | keyword _ hm hs =>
    rw [if_neg (fun h => (hk t hs).1 h.2), if_neg (fun h => (hk t hs).2 h.2),
      if_pos ⟨hm, keyword_iff.2 ⟨t, hs⟩⟩, spelling_keyword hs]
  | ident h1 h2 h3 =>
    rw [if_neg (fun h => h1 ⟨h.1, isBoolLit_iff.1 h.2⟩),
      if_neg (fun h => h2 ⟨h.1, isFloatLitKeyword_iff.1 h.2⟩),
      if_neg (fun h => h3 ⟨h.1, keyword_iff.1 h.2⟩)]

theorem word_start {w : Str} (h : Word w) : ∃ c r, w = c :: r ∧ WordStart c := by
  cases h with
  | mk c r h _ => exact ⟨c, r, rfl, h⟩

theorem not_wordStart_digit {c : Char} (h : c ∈ decimals ∨ c = '.') : ¬ WordStart c := by
  intro hw
  have : c ∈ decimals ++ ['.'] := by simpa using h
  have key : ∀ c ∈ decimals ++ ['.'], ¬ (c ∈ letters ∨ c = '_') := by decide
  exact key c this hw

/-- What `tokenAt` finds. -/
theorem tokenAt_lexeme (m : Mode) (t : Str) (hs : ¬ isSpace (hd t)) (hsl : hd t ≠ '/') :
    ∃ rest, t = (tokenAt m t).body ++ rest ∧
      (((tokenAt m t).err = none ∧
          Lexeme m rest (tokenAt m t).body (tokenAt m t).token (tokenAt m t).text) ∨
       ((∃ e, (tokenAt m t).err = some e) ∧ (tokenAt m t).token = .illegal ∧
          (tokenAt m t).text = [] ∧ LexError m t)) := by
  cases t with
  | nil => exact ⟨[], by simp [tokenAt], .inl ⟨by simp [tokenAt], by simpa [tokenAt] using .eof rfl⟩⟩
  | cons c r =>
    simp only [hd_cons] at hs hsl
    by_cases h1 : WordStart c
    · rw [tokenAt_word h1]
      refine ⟨r.dropWhile isIdentChar, ?_, .inl ⟨rfl, ?_⟩⟩
      · simp [List.takeWhile_append_dropWhile]
      · exact .word _ _ (.mk _ _ h1 (takeWhile_word r))
          (fun d hd h => notNext_dropWhile isIdentChar r d hd (wordChar_iff.1 h)) (wordToken_class _ _)
    have h1' : ¬ (isLetter c ∨ c = '_') := fun h => h1 (wordStart_iff.2 h)
    by_cases h2 : isQuote c ∧ m.str
    · have e : tokenAt m (c :: r) = .ofPiece .strLit (strPiece (c :: r)) := by
        simp only [tokenAt, hd_cons, reduceCtorEq, if_false, h1', h2, and_self, if_true]
      obtain ⟨a, x, h3, h4⟩ := strPiece_prefix c r
      cases hp : (strPiece (c :: r)).2 with
      | none =>
        have e' : tokenAt m (c :: r) =
            { body := (strPiece (c :: r)).1, token := .strLit, text := (strPiece (c :: r)).1 } := by
          rw [e]; simp only [LexOut.ofPiece, hp]
        rw [e']
        exact ⟨x, by simp only [h3]; rw [h4]; simp, .inl ⟨rfl, .str _ h2.2 (strPiece_sound h2.1 hp)⟩⟩
      | some er =>
        have e' : tokenAt m (c :: r) =
            { body := (strPiece (c :: r)).1, token := .illegal, err := some er } := by
          rw [e]; simp only [LexOut.ofPiece, hp]
        rw [e']
        refine ⟨x, by simp only [h3]; rw [h4]; simp, .inr ⟨⟨er, rfl⟩, rfl, rfl, ?_⟩⟩
        refine .str c h2.2 rfl (isQuote_iff.1 h2.1) ?_
        intro w rest hw hl
        have := strPiece_complete (r := rest) hl
        rw [← hw] at this
        rw [this] at hp
        simp at hp
    by_cases h3 : (isDecimalDigit c ∨ c = '.') ∧ m.number
    · have e : tokenAt m (c :: r) = .ofPiece (numPiece (c :: r)).1 (numPiece (c :: r)).2 := by
        simp only [tokenAt, hd_cons, reduceCtorEq, if_false, h1', h2, h3, and_self, if_true]
      have h3' : c ∈ decimals ∨ c = '.' := h3.1.imp mem_decimals.2 id
      obtain ⟨a, x, h5, h4⟩ := numPiece_prefix c r
      cases hp : (numPiece (c :: r)).2.2 with
      | none =>
        have e' : tokenAt m (c :: r) =
            { body := (numPiece (c :: r)).2.1, token := (numPiece (c :: r)).1,
              text := (numPiece (c :: r)).2.1 } := by
          rw [e]; simp only [LexOut.ofPiece, hp]
        rw [e']
        refine ⟨x, by simp only [h5]; rw [h4]; simp, .inl ⟨rfl, ?_⟩⟩
        rcases numPiece_sound (t := c :: r) (by simpa using h3.1) hp with ⟨h6, h7⟩ | ⟨h6, h7⟩
        · simp only [h6]; exact .int _ h3.2 h7
        · simp only [h6]
          refine .float _ h3.2 h7 ?_
          intro hw
          obtain ⟨c', r', hw, hs⟩ := word_start hw
          rw [h5] at hw
          injection hw with hw _
          subst hw
          exact not_wordStart_digit h3' hs
      | some er =>
        have e' : tokenAt m (c :: r) =
            { body := (numPiece (c :: r)).2.1, token := .illegal, err := some er } := by
          rw [e]; simp only [LexOut.ofPiece, hp]
        rw [e']
        exact ⟨x, by simp only [h5]; rw [h4]; simp, .inr ⟨⟨er, rfl⟩, rfl, rfl, .number c h3.2 rfl h3'⟩⟩
    · have e : tokenAt m (c :: r) = { body := [c], token := asMiscToken c, text := [c] } := by
        simp only [tokenAt, hd_cons, reduceCtorEq, if_false, h1', h2, h3]
      rw [e]
      refine ⟨r, rfl, .inl ⟨rfl, ?_⟩⟩
      simp only
      rcases asMiscToken_cases c with h4 | ⟨h4, h5⟩ | h4
      · refine .punct _ _ h4 (fun hn ht => h3 ⟨.inr ?_, hn⟩)
        rw [ht] at h4
        simpa [punctuation] using h4.symm
      · rw [h4]
        refine .quote _ ?_ (isQuote_iff.1 h5)
        cases hm : m.str with
        | false => rfl
        | true => exact absurd ⟨h5, hm⟩ h2
      · rw [h4]
        refine .other _ ?_ ?_ h1 (fun h => hs (white_iff.1 h)) hsl (fun hn h => h3 ⟨.inl (mem_decimals.1 h), hn⟩)
        · intro t ht
          have := punctuation_misc ht
          rw [h4] at this
          subst this
          simp [punctuation] at ht
        · intro hq
          rcases hq with rfl | rfl <;> exact absurd h4 (by decide)

/-- What `lex` finds after the gap it skips. -/
theorem lex_lexeme (m : Mode) (t : Str) :
    ∃ g cs raw rest, t = g ++ (raw ++ rest) ∧ Gap (!m.comment) (raw ++ rest) g cs ∧
      NotNext White (raw ++ rest) ∧ (lex m t).gap = g ∧ (lex m t).body = raw ∧
      (((lex m t).err = none ∧ Lexeme m rest raw (lex m t).token (lex m t).text ∧
          (lex m t).coms = cs ++ if (lex m t).token = .comment then [(g, (lex m t).text)] else []) ∨
       ((∃ e, (lex m t).err = some e) ∧ (lex m t).token = .illegal ∧ (lex m t).text = [] ∧
          LexError m (raw ++ rest) ∧ (lex m t).coms = cs)) := by
  obtain ⟨g, cs, t', h1, h2, h3, h⟩ := lex_cases m t
  have hw : NotNext White t' := by
    intro c hc hw
    refine h3 ?_
    cases t' with
    | nil => simp at hc
    | cons d t' =>
      simp only [List.head?_cons, Option.some.injEq] at hc
      subst hc
      simpa using white_iff.1 hw
  rcases h with ⟨h4, h⟩ | ⟨r, e, h4, h5, h⟩ | ⟨r, h4, hm, h5, h⟩
  · obtain ⟨rest, h5, h6⟩ := tokenAt_lexeme m t' h3 h4
    have hc : (tokenAt m t').coms = [] := by
      unfold tokenAt LexOut.ofPiece
      repeat' split
      all_goals rfl
    refine ⟨g, cs, (tokenAt m t').body, rest, by rw [h1, ← h5], h5 ▸ h2, h5 ▸ hw, ?_⟩
    rw [h]
    simp only [LexOut.withGap, hc, List.map_nil, List.append_nil]
    refine ⟨trivial, trivial, ?_⟩
    rcases h6 with ⟨h6, h7⟩ | ⟨h6, h7, h8, h9⟩
    · refine .inl ⟨h6, h7, ?_⟩
      rw [if_neg]
      · simp
      · intro ht
        have key : ∀ b x, t' = b ++ rest → Lexeme m rest b .comment x → False := by
          intro b x hb hl
          cases hl with
          | word _ _ _ _ hc =>
            cases hc
            next hs => simp [spelling] at hs
          | punct _ _ hp => simp [punctuation] at hp
          | comment _ _ _ hc =>
            refine h4 ?_
            rw [hb]
            cases hc <;> simp
        exact key _ _ h5 (ht ▸ h7)
    · exact .inr ⟨h6, h7, h8, h5 ▸ h9, trivial⟩
  · obtain ⟨a, x, h6, h7⟩ := commentPiece_prefix r
    have h8 : t' = (commentPiece t').2.1 ++ x := by rw [h4, h6, h7]; simp
    refine ⟨g, cs, (commentPiece t').2.1, x, by rw [h1, ← h8], by rw [← h8]; exact h2,
      by rw [← h8]; exact hw, ?_⟩
    rw [h]
    simp only [LexOut.withGap, List.map_nil, List.append_nil]
    refine ⟨trivial, trivial, .inr ⟨⟨_, rfl⟩, trivial, trivial, ?_, trivial⟩⟩
    rw [← h8]
    refine .comment (by rw [h4]; rfl) ?_
    intro raw text rest hr hc
    obtain ⟨_, _, hc⟩ := commentPiece_complete hc
    rw [← hr] at hc
    rw [hc] at h5
    simp at h5
  · rw [h4] at h5
    obtain ⟨x, h6, h7⟩ := commentPiece_sound h5
    rw [← h4] at h6 h7
    refine ⟨g, cs, (commentPiece t').2.1, x, by rw [h1, ← h6], by rw [← h6]; exact h2,
      by rw [← h6]; exact hw, ?_⟩
    rw [h]
    simp only [LexOut.withGap, if_true]
    exact ⟨trivial, trivial, .inl ⟨trivial, .comment _ _ hm h7, by simp⟩⟩

end Scanner
end Verif
