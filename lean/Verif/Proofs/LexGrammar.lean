import Verif.Proofs.LexFacts

/-!
# Words, numbers and strings against their grammars
-/

set_option backward.isDefEq.respectTransparency false
set_option backward.dsimp.instances true

namespace Verif
namespace Scanner
open M Spec

theorem char_eq_iff (c d : Char) : c = d ↔ c.toNat = d.toNat :=
  ⟨fun h => h ▸ rfl, fun h => Char.ext (UInt32.toNat_inj.1 h)⟩

theorem char_le_iff (c d : Char) : c ≤ d ↔ c.toNat ≤ d.toNat := Iff.rfl

theorem char_lt_iff (c d : Char) : c < d ↔ c.toNat < d.toNat := Iff.rfl

theorem mem_octals {c : Char} : c ∈ octals ↔ isOctalDigit c = true := by
  simp only [octals, isOctalDigit, List.mem_cons, List.not_mem_nil, or_false, char_eq_iff, char_le_iff,
    decide_eq_true_eq, Char.reduceToNat]
  omega

theorem mem_decimals {c : Char} : c ∈ decimals ↔ isDecimalDigit c = true := by
  simp only [decimals, isDecimalDigit, List.mem_cons, List.not_mem_nil, or_false, char_eq_iff, char_le_iff,
    decide_eq_true_eq, Char.reduceToNat]
  omega

theorem mem_hexes {c : Char} : c ∈ hexes ↔ isHexDigit c = true := by
  have e : isHexDigit c = true ↔ (('0' ≤ c ∧ c ≤ '9') ∨ ('A' ≤ c ∧ c ≤ 'F') ∨ ('a' ≤ c ∧ c ≤ 'f')) := by
    unfold isHexDigit
    repeat' split
    all_goals simp_all
  rw [e]
  simp only [hexes, List.mem_cons, List.not_mem_nil, or_false, char_eq_iff, char_le_iff,
    Char.reduceToNat]
  omega

theorem isLetter_iff {c : Char} :
    isLetter c = true ↔ (('A' ≤ c ∧ c ≤ 'Z') ∨ ('a' ≤ c ∧ c ≤ 'z')) := by
  simp only [isLetter, char_le_iff, char_lt_iff, Char.reduceToNat]
  by_cases h1 : c.toNat < 65
  · simp [h1]
    try omega
  by_cases h2 : 122 < c.toNat
  · simp [h1, h2]
    try omega
  by_cases h3 : 90 < c.toNat ∧ c.toNat < 97
  · simp [h1, h2, h3]
    try omega
  · simp only [h1, h2, h3]; simp; omega

theorem mem_letters {c : Char} : c ∈ letters ↔ isLetter c = true := by
  rw [isLetter_iff]
  simp only [letters, List.mem_cons, List.not_mem_nil, or_false, char_eq_iff, char_le_iff,
    Char.reduceToNat]
  omega

theorem mem_charEscapes {c : Char} : c ∈ charEscapes ↔ isCharEscape c = true := by
  simp [charEscapes, isCharEscape]

theorem wordChar_iff {c : Char} : WordChar c ↔ isIdentChar c = true := by
  simp [WordChar, isIdentChar, mem_letters, mem_decimals, or_assoc]

theorem wordStart_iff {c : Char} : WordStart c ↔ (isLetter c = true ∨ c = '_') := by
  simp [WordStart, mem_letters]

/-! ## Words -/

theorem notNext_iff {p : Char → Prop} {t : Str} (he : ¬ p eof) : NotNext p t ↔ ¬ p (hd t) := by
  cases t with
  | nil => simp [NotNext, he]
  | cons c t => simp [NotNext]

theorem notNext_dropWhile (p : Char → Bool) (t : Str) : NotNext (fun c => p c = true) (t.dropWhile p) := by
  intro c hc
  have hne : t.dropWhile p ≠ [] := by intro h; rw [h] at hc; simp at hc
  have := List.head_dropWhile_not p hne
  rw [List.head?_eq_some_head hne] at hc
  injection hc with hc
  subst hc
  show ¬ p _ = true
  rw [this]
  simp

theorem takeWhile_append_notNext {p : Char → Bool} {a b : Str} (ha : ∀ c ∈ a, p c = true)
    (hb : NotNext (fun c => p c = true) b) : (a ++ b).takeWhile p = a := by
  rw [takeWhile_append_of_all ha]
  cases b with
  | nil => simp
  | cons c b =>
    have := hb c rfl
    simp [this]

theorem dropWhile_append_notNext {p : Char → Bool} {a b : Str} (ha : ∀ c ∈ a, p c = true)
    (hb : NotNext (fun c => p c = true) b) : (a ++ b).dropWhile p = b := by
  rw [dropWhile_append_of_all ha]
  cases b with
  | nil => simp
  | cons c b =>
    have := hb c rfl
    simp [this]

theorem takeWhile_word (r : Str) : ∀ d ∈ r.takeWhile isIdentChar, WordChar d :=
  fun _ hd => wordChar_iff.2 (mem_takeWhile hd)

/-- The token at a word. -/
theorem tokenAt_word {m : Mode} {c : Char} {r : Str} (h : WordStart c) :
    tokenAt m (c :: r) =
      { body := c :: r.takeWhile isIdentChar, token := wordToken m (c :: r.takeWhile isIdentChar),
        text := c :: r.takeWhile isIdentChar } := by
  have := wordStart_iff.1 h
  simp [tokenAt, this]

/-! ## Numbers -/

theorem over_takeWhile_dec (t : Str) : Over decimals (t.takeWhile isDecimalDigit) :=
  fun _ h => mem_decimals.2 (mem_takeWhile h)

theorem decPiece_sound {t : Str} (h : (decPiece t).2 = none) : Decimals (decPiece t).1 := by
  by_cases hd : isDecimalDigit (hd t)
  · have e : decPiece t = (t.takeWhile isDecimalDigit, none) := by simp [decPiece, hd]
    rw [e]
    refine ⟨?_, over_takeWhile_dec t⟩
    cases t with
    | nil => exact absurd hd (by decide)
    | cons c t => simp only [hd_cons] at hd; simp [hd]
  · simp [decPiece, hd] at h

theorem after_none {a : Str} {p : Piece} (h : (p.after a).2 = none) : p.2 = none := h

theorem expPiece_sound {t : Str} (ht : isExp (hd t)) (h : (expPiece t).2 = none) :
    Exponent (expPiece t).1 := by
  have he := isExp_iff.1 ht
  by_cases hs : isSign (hd t.tail)
  · have e : expPiece t = (decPiece t.tail.tail).after [hd t, hd t.tail] := by simp [expPiece, hs]
    rw [e] at h ⊢
    exact .signed _ _ _ he (isSign_iff.1 hs) (decPiece_sound (after_none h))
  · have e : expPiece t = (decPiece t.tail).after [hd t] := by simp [expPiece, hs]
    rw [e] at h ⊢
    exact .plain _ _ he (decPiece_sound (after_none h))

theorem optExpPiece_sound {t : Str} (h : (optExpPiece t).2 = none) : OptExponent (optExpPiece t).1 := by
  unfold optExpPiece at h ⊢
  by_cases he : isExp (hd t)
  · simp only [he, if_true] at h ⊢
    exact .inr (expPiece_sound he h)
  · simp [he, OptExponent]

theorem numPiece_sound {t : Str} (ht : isDecimalDigit (hd t) ∨ hd t = '.')
    (h : (numPiece t).2.2 = none) :
    ((numPiece t).1 = .intLit ∧ IntLit (numPiece t).2.1) ∨
    ((numPiece t).1 = .floatLit ∧ FloatLit (numPiece t).2.1) := by
  obtain ⟨c, r, rfl⟩ : ∃ c r, t = c :: r := by
    cases t with
    | nil => rcases ht with h | h <;> exact absurd h (by decide)
    | cons c r => exact ⟨c, r, rfl⟩
  simp only [hd_cons] at ht
  by_cases h1 : c = '0' ∧ (hd r = 'x' ∨ hd r = 'X')
  · by_cases h2 : isHexDigit (hd r.tail)
    · have e : numPiece (c :: r) = (.intLit, (c :: hd r :: r.tail.takeWhile isHexDigit, none)) := by
        simp [numPiece, h1, h2]
      rw [e]
      refine .inl ⟨rfl, ?_⟩
      obtain ⟨rfl, hx⟩ := h1
      refine .hex _ _ hx ?_ (fun _ hc => mem_hexes.2 (mem_takeWhile hc))
      cases hr : r.tail with
      | nil => rw [hr] at h2; exact absurd h2 (by decide)
      | cons d r' => rw [hr] at h2; simp only [hd_cons] at h2; simp [h2]
    · simp [numPiece, h1, h2] at h
  by_cases h2 : c = '.'
  · subst h2
    have e : numPiece ('.' :: r) = (.floatLit, (fracNoOmitPiece r).after ['.']) := by simp [numPiece]
    rw [e] at h ⊢
    refine .inr ⟨rfl, ?_⟩
    have h := after_none h
    by_cases hd : isDecimalDigit (hd r)
    · have e2 : fracNoOmitPiece r = (optExpPiece (r.dropWhile isDecimalDigit)).after
          (r.takeWhile isDecimalDigit) := by simp [fracNoOmitPiece, hd]
      rw [e2] at h ⊢
      have := FloatLit.frac (r.takeWhile isDecimalDigit) _ ⟨by
        cases r with
        | nil => exact absurd hd (by decide)
        | cons d r => simp only [hd_cons] at hd; simp [hd], over_takeWhile_dec r⟩
        (optExpPiece_sound (after_none h))
      simpa [Piece.after] using this
    · simp [fracNoOmitPiece, hd, decPiece] at h
  have hc : c ∈ decimals := by
    rcases ht with ht | ht
    · exact mem_decimals.2 ht
    · exact absurd ht h2
  have hfrac : ∀ (d t : Str), Decimals d → (fracPiece t).2 = none →
      FloatLit (d ++ ['.'] ++ (fracPiece t).1) := by
    intro d t hd h
    have := FloatLit.full d (t.takeWhile isDecimalDigit) _ hd (over_takeWhile_dec t)
      (optExpPiece_sound (after_none h))
    simpa [fracPiece, Piece.after] using this
  by_cases h3 : hd r = '.'
  · have e : numPiece (c :: r) = (.floatLit, (fracPiece r.tail).after [c, hd r]) := by
      simp [numPiece, h2, h3]
    rw [e] at h ⊢
    refine .inr ⟨rfl, ?_⟩
    have := hfrac [c] r.tail ⟨by simp, by simpa [Over] using hc⟩ (after_none h)
    simpa [Piece.after, h3] using this
  by_cases h4 : isExp (hd r)
  · have e : numPiece (c :: r) = (.floatLit, (expPiece r).after [c]) := by
      simp [numPiece, h1, h2, h3, h4]
    rw [e] at h ⊢
    refine .inr ⟨rfl, ?_⟩
    exact FloatLit.exp [c] _ ⟨by simp, by simpa [Over] using hc⟩ (expPiece_sound h4 (after_none h))
  by_cases h5 : c = '0'
  · have h1' : ¬ (hd r = 'x' ∨ hd r = 'X') := fun h => h1 ⟨h5, h⟩
    have e : numPiece (c :: r) = (.intLit, (c :: r.takeWhile isOctalDigit, none)) := by
      simp [numPiece, h1', h3, h4, h5]
    rw [e]
    refine .inl ⟨rfl, ?_⟩
    rw [h5]
    exact .octal _ (fun _ hc => mem_octals.2 (mem_takeWhile hc))
  have hds : Decimals (c :: r.takeWhile isDecimalDigit) := by
    refine ⟨by simp, ?_⟩
    intro x hx
    rcases List.mem_cons.1 hx with rfl | hx
    · exact hc
    · exact over_takeWhile_dec r x hx
  by_cases h6 : hd (r.dropWhile isDecimalDigit) = '.'
  · have e : numPiece (c :: r) = (.floatLit, (fracPiece (r.dropWhile isDecimalDigit).tail).after
        (c :: r.takeWhile isDecimalDigit ++ ['.'])) := by
      simp [numPiece, h2, h3, h4, h5, h6]
    rw [e] at h ⊢
    exact .inr ⟨rfl, hfrac _ _ hds (after_none h)⟩
  by_cases h7 : isExp (hd (r.dropWhile isDecimalDigit))
  · have e : numPiece (c :: r) = (.floatLit, (expPiece (r.dropWhile isDecimalDigit)).after
        (c :: r.takeWhile isDecimalDigit)) := by
      simp [numPiece, h2, h3, h4, h5, h6, h7]
    rw [e] at h ⊢
    exact .inr ⟨rfl, .exp _ _ hds (expPiece_sound h7 (after_none h))⟩
  · have e : numPiece (c :: r) = (.intLit, (c :: r.takeWhile isDecimalDigit, none)) := by
      simp [numPiece, h2, h3, h4, h5, h6, h7]
    rw [e]
    exact .inl ⟨rfl, .decimal _ _ hc h5 (over_takeWhile_dec r)⟩

theorem numPiece_token (t : Str) : (numPiece t).1 = .intLit ∨ (numPiece t).1 = .floatLit := by
  simp only [numPiece, apply_ite Prod.fst]
  repeat' split
  all_goals simp

/-! ### Completeness -/

theorem decPiece_complete {d r : Str} (hd : Decimals d) (hr : NotNext (· ∈ decimals) r) :
    decPiece (d ++ r) = (d, none) := by
  have h1 : (d ++ r).takeWhile isDecimalDigit = d :=
    takeWhile_append_notNext (fun c hc => mem_decimals.1 (hd.2 c hc))
      (fun c hc h => hr c hc (mem_decimals.2 h))
  obtain ⟨c, d', rfl⟩ := List.exists_cons_of_ne_nil hd.1
  have : isDecimalDigit c := mem_decimals.1 (hd.2 c (by simp))
  simp only [decPiece, List.cons_append, hd_cons, this, if_true]
  rw [List.cons_append] at h1
  rw [h1]

theorem digit_not_sign {c : Char} (h : c ∈ decimals) : isSign c = false := by
  cases hs : isSign c with
  | false => rfl
  | true =>
    rcases isSign_iff.1 hs with rfl | rfl <;> exact absurd h (by decide)

theorem digit_not_exp {c : Char} (h : c ∈ decimals) : isExp c = false := by
  cases hs : isExp c with
  | false => rfl
  | true =>
    rcases isExp_iff.1 hs with rfl | rfl <;> exact absurd h (by decide)

theorem octals_decimals {c : Char} (h : c ∈ octals) : c ∈ decimals := by
  simp only [octals, decimals, List.mem_cons, List.not_mem_nil, or_false] at h ⊢
  rcases h with h | h | h | h | h | h | h | h <;> simp [h]

theorem expPiece_complete {e r : Str} (he : Exponent e) (hr : NotNext (· ∈ decimals) r) :
    expPiece (e ++ r) = (e, none) ∧ isExp (hd (e ++ r)) = true := by
  cases he with
  | plain x d hx hd =>
    refine ⟨?_, by simpa using isExp_iff.2 hx⟩
    obtain ⟨c, d', rfl⟩ := List.exists_cons_of_ne_nil hd.1
    have hs : isSign c = false := digit_not_sign (hd.2 c (by simp))
    have := decPiece_complete hd hr
    simp only [List.cons_append] at this
    simp [expPiece, hs, this, Piece.after]
  | signed x s d hx hs hd =>
    refine ⟨?_, by simpa using isExp_iff.2 hx⟩
    have := decPiece_complete hd hr
    have hs' : isSign s = true := isSign_iff.2 hs
    simp [expPiece, hs', this, Piece.after]

theorem optExpPiece_complete {e r : Str} (he : OptExponent e) (hr : NotNext fracNext r) :
    optExpPiece (e ++ r) = (e, none) := by
  have hr' : NotNext (· ∈ decimals) r := fun c hc h => hr c hc (.inl h)
  rcases he with rfl | he
  · have : isExp (hd r) = false := by
      cases hx : isExp (hd r) with
      | false => rfl
      | true =>
        obtain ⟨r', hr2⟩ := hd_ne_eof (isExp_ne hx) rfl
        exact absurd (Or.inr (isExp_iff.1 hx)) (hr (hd r) (by rw [hr2]; rfl))
    simp [optExpPiece, this]
  · have := expPiece_complete he hr'
    simp only [optExpPiece, this.2, if_true]
    exact this.1

theorem optExponent_notNext {e r : Str} (he : OptExponent e) (hr : NotNext fracNext r) :
    NotNext (· ∈ decimals) (e ++ r) := by
  rcases he with rfl | he
  · exact fun c hc h => hr c hc (.inl h)
  · cases he with
    | plain x d hx hd =>
      intro c hc
      simp at hc
      subst hc
      rcases hx with rfl | rfl <;> decide
    | signed x s d hx hs hd =>
      intro c hc
      simp at hc
      subst hc
      rcases hx with rfl | rfl <;> decide

theorem fracPiece_complete {f e r : Str} (hf : Over decimals f) (he : OptExponent e)
    (hr : NotNext fracNext r) : fracPiece (f ++ e ++ r) = (f ++ e, none) := by
  have h1 := optExponent_notNext he hr
  have h2 : NotNext (fun c => isDecimalDigit c = true) (e ++ r) :=
    fun c hc h => h1 c hc (mem_decimals.2 h)
  have hf' : ∀ c ∈ f, isDecimalDigit c = true := fun c hc => mem_decimals.1 (hf c hc)
  rw [List.append_assoc]
  unfold fracPiece
  rw [takeWhile_append_notNext hf' h2, dropWhile_append_notNext hf' h2, optExpPiece_complete he hr]
  rfl

/-- Every integer literal not followed by a rune that could continue a number is scanned whole. -/
theorem numPiece_int {w r : Str} (hw : IntLit w) (hr : NotNext (fun c => numNext c ∨ c ∈ hexes) r) :
    numPiece (w ++ r) = (.intLit, (w, none)) := by
  have hne : ∀ c, hd r = c → numNext c ∨ c ∈ hexes → False := by
    intro c hc hn
    have : c ≠ eof := by
      rintro rfl
      rcases hn with (h | h | h | h | h | h) | h <;> exact absurd h (by decide)
    obtain ⟨r', rfl⟩ := hd_ne_eof this hc
    exact hr c rfl hn
  have hexp : isExp (hd r) = false := by
    cases hx : isExp (hd r) with
    | false => rfl
    | true =>
      exfalso
      rcases isExp_iff.1 hx with h | h
      · exact hne _ h (.inl (by simp [numNext]))
      · exact hne _ h (.inl (by simp [numNext]))
  have hdot : hd r ≠ '.' := fun h => hne _ h (.inl (by simp [numNext]))
  have hx : ¬ (hd r = 'x' ∨ hd r = 'X') := by
    rintro (h | h)
    · exact hne _ h (.inl (by simp [numNext]))
    · exact hne _ h (.inl (by simp [numNext]))
  cases hw with
  | decimal c w hc h0 hw =>
    have hdec : NotNext (fun c => isDecimalDigit c = true) r :=
      fun d hd h => hr d hd (.inl (.inl (mem_decimals.2 h)))
    have hw' : ∀ c ∈ w, isDecimalDigit c = true := fun c hc => mem_decimals.1 (hw c hc)
    have hcd : c ≠ '.' := by rintro rfl; exact absurd hc (by decide)
    have e1 := takeWhile_append_notNext hw' hdec
    have e2 := dropWhile_append_notNext hw' hdec
    have h3 : hd (w ++ r) ≠ '.' := by
      cases w with
      | nil => exact hdot
      | cons d w =>
        simp only [List.cons_append, hd_cons]
        rintro rfl; exact absurd (hw '.' (by simp)) (by decide)
    have h4 : isExp (hd (w ++ r)) = false := by
      cases w with
      | nil => exact hexp
      | cons d w => exact digit_not_exp (hw d (by simp))
    simp [numPiece, h0, hcd, h3, h4, e1, e2, hdot, hexp]
  | octal w hw =>
    have hoct : NotNext (fun c => isOctalDigit c = true) r :=
      fun d hd h => hr d hd (.inr (mem_hexes.2 (isOctalDigit_hex h)))
    have hw' : ∀ c ∈ w, isOctalDigit c = true := fun c hc => mem_octals.1 (hw c hc)
    have e1 := takeWhile_append_notNext hw' hoct
    have h3 : hd (w ++ r) ≠ '.' := by
      cases w with
      | nil => exact hdot
      | cons d w =>
        simp only [List.cons_append, hd_cons]
        rintro rfl; exact absurd (hw '.' (by simp)) (by decide)
    have h4 : isExp (hd (w ++ r)) = false := by
      cases w with
      | nil => exact hexp
      | cons d w =>
        exact digit_not_exp (octals_decimals (hw d (by simp)))
    have h5 : ¬ (hd (w ++ r) = 'x' ∨ hd (w ++ r) = 'X') := by
      cases w with
      | nil => exact hx
      | cons d w =>
        have := hw d (by simp)
        simp only [List.cons_append, hd_cons]
        rintro (rfl | rfl)
        · exact absurd this (by decide)
        · exact absurd this (by decide)
    simp [numPiece, h3, h4, h5, e1]
  | hex x w hx' hw0 hw =>
    have hhex : NotNext (fun c => isHexDigit c = true) r :=
      fun d hd h => hr d hd (.inr (mem_hexes.2 h))
    have hw' : ∀ c ∈ w, isHexDigit c = true := fun c hc => mem_hexes.1 (hw c hc)
    have e1 := takeWhile_append_notNext hw' hhex
    obtain ⟨d, w', rfl⟩ := List.exists_cons_of_ne_nil hw0
    have hd' : isHexDigit d = true := hw' d (by simp)
    rw [List.cons_append] at e1
    simp only [numPiece, List.cons_append, hd_cons, List.tail_cons, hx', and_self, if_true, hd', e1]

/-- Every float literal without superfluous leading zero, not followed by a rune that could continue
it, is scanned whole. -/
theorem numPiece_float {w r : Str} (hw : FloatLit w) (hz : ¬ LeadingZero w)
    (hi : w ≠ ['i', 'n', 'f']) (hn : w ≠ ['n', 'a', 'n']) (hr : NotNext fracNext r) :
    numPiece (w ++ r) = (.floatLit, (w, none)) := by
  have hr' : NotNext (· ∈ decimals) r := fun c hc h => hr c hc (.inl h)
  have key : ∀ (d x : Str) (p : Piece) (hd : Decimals d) (hz : ¬ LeadingZero (d ++ x)) (e : Char) (x' : Str),
      x ++ r = e :: x' → (e = '.' ∧ p = (fracPiece x').after ['.'] ∨ isExp e = true ∧ p = expPiece (e :: x')) →
      numPiece (d ++ x ++ r) = (.floatLit, p.after d) := by
    intro d x p hd hz e x' hx hp
    obtain ⟨c, d', rfl⟩ := List.exists_cons_of_ne_nil hd.1
    have hc := hd.2 c (by simp)
    have hcd : c ≠ '.' := by rintro rfl; exact absurd hc (by decide)
    have he : e ∉ decimals := by
      rcases hp with ⟨rfl, _⟩ | ⟨h, _⟩
      · decide
      · intro h'; rw [digit_not_exp h'] at h; cases h
    have hex : ¬ (e = 'x' ∨ e = 'X') := by
      rcases hp with ⟨rfl, _⟩ | ⟨h, _⟩
      · decide
      · rcases isExp_iff.1 h with rfl | rfl <;> decide
    rw [List.append_assoc, hx]
    cases d' with
    | nil =>
      rcases hp with ⟨rfl, rfl⟩ | ⟨h, rfl⟩
      · simp [numPiece, hcd, Piece.after]
      · have hnd : e ≠ '.' := by rintro rfl; exact absurd h (by decide)
        simp [numPiece, hcd, hex, hnd, h]
    | cons d0 d' =>
      have h0 : c ≠ '0' := by
        rintro rfl
        exact hz ⟨d0, d' ++ x, rfl, hd.2 d0 (by simp)⟩
      have hd0 := hd.2 d0 (by simp)
      have hd0d : d0 ≠ '.' := by rintro rfl; exact absurd hd0 (by decide)
      have hd0e := digit_not_exp hd0
      have hnn : NotNext (fun c => isDecimalDigit c = true) (e :: x') := by
        intro c hc h
        simp at hc
        subst hc
        exact he (mem_decimals.2 h)
      have hall : ∀ c ∈ d0 :: d', isDecimalDigit c = true :=
        fun c hc => mem_decimals.1 (hd.2 c (List.mem_cons_of_mem _ hc))
      have e1 := takeWhile_append_notNext hall hnn
      have e2 := dropWhile_append_notNext hall hnn
      rw [List.cons_append] at e1 e2
      rcases hp with ⟨rfl, rfl⟩ | ⟨h, rfl⟩
      · simp [numPiece, h0, hcd, hd0d, hd0e, e1, e2]
      · have hnd : e ≠ '.' := by rintro rfl; exact absurd h (by decide)
        simp [numPiece, h0, hcd, hd0d, hd0e, e1, e2, hnd, h]
  cases hw with
  | full d f e hd hf he =>
    have h1 := fracPiece_complete hf he hr
    have := key d ('.' :: f ++ e) _ hd (by simpa using hz) '.' (f ++ e ++ r) (by simp)
      (.inl ⟨rfl, rfl⟩)
    rw [h1] at this
    simpa [Piece.after] using this
  | exp d e hd he =>
    obtain ⟨h1, h2⟩ := expPiece_complete he hr'
    obtain ⟨x', hx'⟩ := hd_ne_eof (isExp_ne h2) rfl
    have := key d e _ hd hz (Scanner.hd (e ++ r)) x' hx' (.inr ⟨h2, rfl⟩)
    rw [← hx', h1] at this
    exact this
  | frac f e hf he =>
    have h1 := fracPiece_complete hf.2 he hr
    obtain ⟨c, f', rfl⟩ := List.exists_cons_of_ne_nil hf.1
    have hc := mem_decimals.1 (hf.2 c (by simp))
    have h2 : fracNoOmitPiece (c :: f' ++ e ++ r) = fracPiece (c :: f' ++ e ++ r) := by
      simp [fracNoOmitPiece, fracPiece, hc]
    have h3 : numPiece ('.' :: (c :: f' ++ e ++ r)) =
        (.floatLit, (fracNoOmitPiece (c :: f' ++ e ++ r)).after ['.']) := by simp [numPiece]
    rw [h2, h1] at h3
    simpa [Piece.after] using h3
  | inf => exact absurd rfl hi
  | nan => exact absurd rfl hn

/-! ## Strings -/

theorem strBody_sound {q : Char} (hq : isQuote q = true) : ∀ {t b : Str}, strBody q false t = some b →
    LooseValues q b := by
  have hqe : isCharEscape q = true := by
    simp only [isQuote, Bool.decide_or, Bool.or_eq_true, decide_eq_true_eq] at hq
    rcases hq with rfl | rfl <;> rfl
  intro t
  generalize hk : t.length = k
  induction k using Nat.strongRecOn generalizing t with
  | ind k ih =>
    intro b h
    cases t with
    | nil => simp [strBody] at h
    | cons c t =>
      simp only [strBody] at h
      rw [if_neg (by simp)] at h
      by_cases h1 : c = q
      · rw [if_pos h1] at h; injection h with h; subst h; exact .nil
      rw [if_neg h1] at h
      by_cases h2 : c = '\n'
      · rw [if_pos h2] at h; cases h
      rw [if_neg h2] at h
      by_cases h3 : c = '\\'
      · subst h3
        simp only [decide_true, Option.map_eq_some_iff] at h
        obtain ⟨b', h4, rfl⟩ := h
        cases t with
        | nil => simp [strBody] at h4
        | cons d t =>
          by_cases h5 : isCharEscape d
          · simp only [strBody, h5, and_self, if_true, Option.map_eq_some_iff] at h4
            obtain ⟨b'', h6, rfl⟩ := h4
            exact .escape _ _ (mem_charEscapes.2 h5) (ih t.length (by simp at hk; omega) rfl h6)
          · rw [strBody_noEscape (by simpa using h5)] at h4
            have h6 := ih (d :: t).length (by simp at hk ⊢; omega) rfl h4
            obtain ⟨r, hr⟩ := strBody_append h4
            cases b' with
            | nil =>
              simp at hr
              exact absurd (hr.1 ▸ hqe) h5
            | cons x b' =>
              simp at hr
              refine .stray _ ?_ (by simp) h6
              intro y hy hm
              simp at hy
              subst hy
              rw [← hr.1] at hm
              exact h5 (mem_charEscapes.1 hm)
      · rw [decide_eq_false h3] at h
        simp only [Option.map_eq_some_iff] at h
        obtain ⟨b', h4, rfl⟩ := h
        exact .plain _ _ h1 h2 h3 (ih t.length (by simp at hk; omega) rfl h4)

theorem strBody_complete {q : Char} {b : Str} (hq : isQuote q = true) (h : LooseValues q b) (r : Str) :
    strBody q false (b ++ q :: r) = some b := by
  have hqb : q ≠ '\\' := by
    simp only [isQuote, Bool.decide_or, Bool.or_eq_true, decide_eq_true_eq] at hq
    rcases hq with rfl | rfl <;> decide
  induction h with
  | nil => simp [strBody]
  | plain c w h1 h2 h3 _ ih =>
    simp only [List.cons_append, strBody]
    rw [if_neg (by simp), if_neg h1, if_neg h2, decide_eq_false h3, ih]
    rfl
  | escape c w h1 _ ih =>
    have := mem_charEscapes.1 h1
    simp [strBody, hqb.symm, this, ih]
  | stray w h1 h2 _ ih =>
    have e : strBody q true (w ++ q :: r) = strBody q false (w ++ q :: r) := by
      refine strBody_noEscape ?_
      obtain ⟨c, w', rfl⟩ := List.exists_cons_of_ne_nil h2
      have : ¬ c ∈ charEscapes := h1 c rfl
      rw [mem_charEscapes] at this
      simpa using this
    simp [strBody, hqb.symm, e, ih]

theorem looseValues_append {q : Char} {a : Str} {b : Str} (ha : ∀ c ∈ a, c ≠ q ∧ c ≠ '\n' ∧ c ≠ '\\')
    (hb : LooseValues q b) : LooseValues q (a ++ b) := by
  induction a with
  | nil => exact hb
  | cons c a ih =>
    have := ha c (by simp)
    exact .plain c _ this.1 this.2.1 this.2.2 (ih (fun x hx => ha x (by simp [hx])))

/-- The contents of a string literal of the language are accepted. -/
theorem charValues_loose {q : Char} {b : Str} (hq : isQuote q = true) (h : CharValues q b) :
    LooseValues q b := by
  induction h with
  | nil => exact .nil
  | cons v w hv _ ih =>
    cases hv with
    | plain c h1 h2 h3 => exact .plain _ _ h1 h2 h3 ih
    | char c hc => exact .escape _ _ hc ih
    | hex x a b hx ha hb =>
      have h1 := isHexDigit_plain hq (mem_hexes.1 ha)
      have h2 := isHexDigit_plain hq (mem_hexes.1 hb)
      have h3 : x ≠ q ∧ x ≠ '\n' ∧ x ≠ '\\' := by
        simp only [isQuote, Bool.decide_or, Bool.or_eq_true, decide_eq_true_eq] at hq
        rcases hx with rfl | rfl <;> rcases hq with rfl | rfl <;> decide
      refine .stray _ ?_ (by simp) (looseValues_append (a := [x, a, b]) ?_ ih)
      · intro c hc
        simp at hc
        subst hc
        rcases hx with rfl | rfl <;> decide
      · simp only [List.mem_cons, List.not_mem_nil, or_false]
        rintro c (rfl | rfl | rfl) <;> assumption
    | octal a b c ha hb hc =>
      have h1 := isHexDigit_plain hq (isOctalDigit_hex (mem_octals.1 ha))
      have h2 := isHexDigit_plain hq (isOctalDigit_hex (mem_octals.1 hb))
      have h3 := isHexDigit_plain hq (isOctalDigit_hex (mem_octals.1 hc))
      refine .stray _ ?_ (by simp) (looseValues_append (a := [a, b, c]) ?_ ih)
      · intro c hc
        simp at hc
        subst hc
        intro h
        rw [mem_charEscapes, isOctalDigit_escape (mem_octals.1 ha)] at h
        cases h
      · simp only [List.mem_cons, List.not_mem_nil, or_false]
        rintro c (rfl | rfl | rfl) <;> assumption

theorem isQuote_iff {q : Char} : isQuote q = true ↔ (q = '\'' ∨ q = '"') := by simp [isQuote]

theorem strPiece_sound {q : Char} {r : Str} (hq : isQuote q = true) (h : (strPiece (q :: r)).2 = none) :
    StrLit (strPiece (q :: r)).1 := by
  cases hb : strBody q false r with
  | none => simp [strPiece, hb] at h
  | some b =>
    have e : strPiece (q :: r) = (q :: b ++ [q], none) := by simp [strPiece, hb]
    rw [e]
    exact ⟨q, b, isQuote_iff.1 hq, strBody_sound hq hb, rfl⟩

theorem strPiece_complete {w r : Str} (h : StrLit w) : strPiece (w ++ r) = (w, none) := by
  obtain ⟨q, b, hq, hb, rfl⟩ := h
  have := strBody_complete (isQuote_iff.2 hq) hb r
  simp [strPiece, this]

end Scanner
end Verif
