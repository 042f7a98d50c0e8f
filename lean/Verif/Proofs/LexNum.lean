import Verif.Proofs.Lex

/-!
# Number literals as a function of the remaining text
-/

namespace Verif
namespace Scanner
open M

theorem digitsLoop_eq {cls : Char → Bool} (n : Nat) : ∀ (s : Scanner) (lit : Str),
    NulFree s.inp → s.inp.length < n →
    digitsLoop cls n lit s = .ok (lit ++ s.inp.takeWhile cls) (s.adv (s.inp.takeWhile cls)) := by
  induction n with
  | zero => intro s lit _ h; omega
  | succ n ih =>
    intro s lit hn hl
    simp only [digitsLoop]
    rw [bind_ok (isEOF_eq hn), run_ite]
    cases hi : s.inp with
    | nil => simp [run_pure]
    | cons c r =>
      rw [if_neg (by simp), bind_ok (peek_eq hn), run_ite, hi]
      have hn' := hn
      rw [hi] at hn'
      by_cases hc : cls c
      · rw [if_neg (by simp [hc]), bind_ok (read_cons hi hn'.head),
          ih _ _ (by simpa [hi] using hn'.tail) (by simp [hi] at hl ⊢; omega)]
        simp [hi, hc]
      · rw [if_pos (by simp [hc])]
        simp [hc, run_pure]

/-- `decimals`, with at least one digit. -/
def decPiece (t : Str) : Piece :=
  if isDecimalDigit (hd t) then (t.takeWhile isDecimalDigit, none)
  else ([], some ("decimalDigit", hd t))

theorem scanDecimals_eq {s : Scanner} (hn : NulFree s.inp) :
    scanDecimals s = (decPiece s.inp).res (decPiece s.inp).1 s := by
  unfold scanDecimals
  rw [bind_ok (peek_eq hn), run_ite]
  by_cases h : isDecimalDigit (hd s.inp)
  · rw [if_neg (by simp [h])]
    cases hi : s.inp with
    | nil => rw [hi] at h; exact absurd h (by decide)
    | cons c r =>
      rw [hi] at hn h
      simp only [hd_cons] at h
      rw [bind_ok (read_cons hi hn.head), bind_ok (run_bound _),
        digitsLoop_eq _ _ _ (by simpa [hi] using hn.tail) (by simp)]
      simp [decPiece, h, hi, Piece.res]
  · rw [if_pos (by simp [h])]
    simp [decPiece, h, unexpected, Piece.res]

/-- Whether the rune starts an exponent. -/
def isExp (c : Char) : Bool := c = 'e' ∨ c = 'E'

/-- Whether the rune is a sign. -/
def isSign (c : Char) : Bool := c = '+' ∨ c = '-'

theorem isExp_iff {c : Char} : isExp c ↔ (c = 'e' ∨ c = 'E') := by simp [isExp]
theorem isSign_iff {c : Char} : isSign c ↔ (c = '+' ∨ c = '-') := by simp [isSign]

/-- `exponent`, at its letter. -/
def expPiece (t : Str) : Piece :=
  if isSign (hd t.tail) then (decPiece t.tail.tail).after [hd t, hd t.tail]
  else (decPiece t.tail).after [hd t]

theorem scanExponent_eq {s : Scanner} (hn : NulFree s.inp) (he : isExp (hd s.inp)) :
    scanExponent s = (expPiece s.inp).res (expPiece s.inp).1 s := by
  unfold scanExponent
  rw [bind_ok (peek_eq hn), run_ite, if_pos (isExp_iff.1 he)]
  cases hi : s.inp with
  | nil => rw [hi] at he; exact absurd he (by decide)
  | cons c r =>
    rw [hi] at hn
    have hr : (s.adv [c]).inp = r := by simp [hi]
    have hn' : NulFree (s.adv [c]).inp := by rw [hr]; exact hn.tail
    rw [bind_ok (read_cons hi hn.head), bind_ok (peek_eq hn'), run_ite, hr]
    by_cases hs : isSign (hd r)
    · rw [if_pos (isSign_iff.1 hs)]
      cases r with
      | nil => exact absurd hs (by decide)
      | cons d r =>
        have hr2 : (s.adv ([c] ++ [d])).inp = r := by simp [hi]
        have hn2 : NulFree (s.adv ([c] ++ [d])).inp := by rw [hr2]; exact hn.tail.tail
        rw [bind_ok (read_cons hr hn.tail.head), adv_adv,
          bind_piece (scanDecimals_eq hn2) (y := [c] ++ [d] ++ (decPiece r).1)]
        · simp only [hd_cons] at hs
          rw [hr2]; simp [expPiece, hs, Piece.after]
        · rw [hr2]; rfl
    · rw [if_neg (fun h => hs (isSign_iff.2 h)),
        bind_piece (scanDecimals_eq hn') (y := [c] ++ (decPiece r).1)]
      · rw [hr]; simp [expPiece, hs, Piece.after]
      · rw [hr]; rfl

/-- `[exponent]`. -/
def optExpPiece (t : Str) : Piece := if isExp (hd t) then expPiece t else ([], none)

theorem scanFractionExp_eq {s : Scanner} (hn : NulFree s.inp) (lit : Str) :
    scanFractionExp lit s = (optExpPiece s.inp).res (lit ++ (optExpPiece s.inp).1) s := by
  unfold scanFractionExp
  rw [bind_ok (peek_eq hn), run_ite]
  by_cases h : isExp (hd s.inp)
  · rw [if_pos (isExp_iff.1 h)]
    have := bind_piece (s := s) (a := []) (f := fun exp => Pure.pure (lit ++ exp))
      (y := lit ++ (expPiece s.inp).1) (p := expPiece s.inp) (x := (expPiece s.inp).1)
      (m := scanExponent) (by simpa using scanExponent_eq hn h) rfl
    simp only [adv_nil] at this
    rw [this]
    simp [optExpPiece, h, Piece.after]
  · rw [if_neg (fun hh => h (isExp_iff.2 hh))]
    simp [optExpPiece, h, Piece.res, run_pure]

/-- `decimals [exponent]`. -/
def fracNoOmitPiece (t : Str) : Piece :=
  if isDecimalDigit (hd t) then
    (optExpPiece (t.dropWhile isDecimalDigit)).after (t.takeWhile isDecimalDigit)
  else decPiece t

theorem drop_takeWhile (p : Char → Bool) (t : Str) :
    t.drop (t.takeWhile p).length = t.dropWhile p := by
  have h := List.takeWhile_append_dropWhile (p := p) (l := t)
  have h2 := congrArg (List.drop (t.takeWhile p).length) h
  rw [List.drop_left] at h2
  exact h2.symm

theorem adv_takeWhile_inp (p : Char → Bool) (s : Scanner) :
    (s.adv (s.inp.takeWhile p)).inp = s.inp.dropWhile p := by
  rw [adv_inp, drop_takeWhile]

theorem nulFree_dropWhile {t : Str} (h : NulFree t) (p : Char → Bool) : NulFree (t.dropWhile p) := by
  rw [← drop_takeWhile]; exact h.drop _

theorem scanFractionPartNoOmit_eq {s : Scanner} (hn : NulFree s.inp) :
    scanFractionPartNoOmit s = (fracNoOmitPiece s.inp).res (fracNoOmitPiece s.inp).1 s := by
  have e : scanFractionPartNoOmit = (scanDecimals >>= scanFractionExp) := rfl
  rw [e]
  have hdd := scanDecimals_eq hn
  by_cases h : isDecimalDigit (hd s.inp)
  · have hp : decPiece s.inp = (s.inp.takeWhile isDecimalDigit, none) := by simp [decPiece, h]
    rw [hp] at hdd
    rw [bind_ok hdd, scanFractionExp_eq (by rw [adv_takeWhile_inp]; exact nulFree_dropWhile hn _),
      adv_takeWhile_inp]
    simp only [fracNoOmitPiece, h, if_true, Piece.after]
    cases hx : (optExpPiece (s.inp.dropWhile isDecimalDigit)).2 with
    | none => simp [Piece.res, hx]
    | some ec => simp [Piece.res, hx]
  · have hp : decPiece s.inp = ([], some ("decimalDigit", hd s.inp)) := by simp [decPiece, h]
    rw [hp] at hdd
    rw [bind_err hdd]
    simp [fracNoOmitPiece, h, hp, Piece.res]

/-- `[decimals] [exponent]`. -/
def fracPiece (t : Str) : Piece :=
  (optExpPiece (t.dropWhile isDecimalDigit)).after (t.takeWhile isDecimalDigit)

theorem scanFractionPart_eq {s : Scanner} (hn : NulFree s.inp) :
    scanFractionPart s = (fracPiece s.inp).res (fracPiece s.inp).1 s := by
  unfold scanFractionPart
  rw [bind_ok (peek_eq hn), run_ite]
  by_cases h : isDecimalDigit (hd s.inp)
  · rw [if_pos h]
    have e : scanFractionPartNoOmit = (scanDecimals >>= scanFractionExp) := rfl
    rw [← e, scanFractionPartNoOmit_eq hn]
    simp [fracNoOmitPiece, fracPiece, h]
  · rw [if_neg h, scanFractionExp_eq hn]
    have h1 : s.inp.takeWhile isDecimalDigit = [] := by
      cases hi : s.inp with
      | nil => rfl
      | cons c r => rw [hi] at h; simp at h; simp [h]
    have h2 : s.inp.dropWhile isDecimalDigit = s.inp := by
      cases hi : s.inp with
      | nil => rfl
      | cons c r => rw [hi] at h; simp at h; simp [h]
    simp [fracPiece, h1, h2, Piece.after]

/-- The number at the head of a text that starts with a digit or a dot. -/
def numPiece (t : Str) : Token × Piece :=
  let c := hd t
  let r := t.tail
  if c = '0' ∧ (hd r = 'x' ∨ hd r = 'X') then
    if isHexDigit (hd r.tail) then (.intLit, (c :: hd r :: r.tail.takeWhile isHexDigit, none))
    else (.intLit, ([c, hd r], some ("hexDigit", hd r.tail)))
  else if c = '.' then (.floatLit, (fracNoOmitPiece r).after [c])
  else if hd r = '.' then (.floatLit, (fracPiece r.tail).after [c, hd r])
  else if isExp (hd r) then (.floatLit, (expPiece r).after [c])
  else if c = '0' then (.intLit, (c :: r.takeWhile isOctalDigit, none))
  else
    let ds := r.takeWhile isDecimalDigit
    let r' := r.dropWhile isDecimalDigit
    if hd r' = '.' then (.floatLit, (fracPiece r'.tail).after (c :: ds ++ ['.']))
    else if isExp (hd r') then (.floatLit, (expPiece r').after (c :: ds))
    else (.intLit, (c :: ds, none))

theorem scanNumberLit_eq {s : Scanner} {c : Char} {r : Str} (hn : NulFree s.inp)
    (hi : s.inp = c :: r) :
    scanNumberLit s = (numPiece s.inp).2.res ((numPiece s.inp).1, (numPiece s.inp).2.1) s := by
  have hn0 := hn
  rw [hi] at hn
  unfold scanNumberLit
  have hr : (s.adv [c]).inp = r := by simp [hi]
  have hn1 : NulFree (s.adv [c]).inp := by rw [hr]; exact hn.tail
  rw [bind_ok (read_cons hi hn.head)]
  refine (bind_ok (peek_eq hn1)).trans ?_
  rw [hr, run_ite, hi]
  simp only [List.cons.injEq, and_true]
  by_cases h1 : c = '0' ∧ (hd r = 'x' ∨ hd r = 'X')
  · rw [if_pos h1]
    obtain ⟨rfl, h1⟩ := h1
    cases r with
    | nil => rcases h1 with h | h <;> exact absurd h (by decide)
    | cons x r =>
      have hr2 : (s.adv (['0'] ++ [x])).inp = r := by simp [hi]
      have hn2 : NulFree (s.adv (['0'] ++ [x])).inp := by rw [hr2]; exact hn.tail.tail
      rw [bind_ok (read_cons hr hn.tail.head), adv_adv, bind_ok (peek_eq hn2), hr2, run_ite]
      by_cases h2 : isHexDigit (hd r)
      · rw [if_neg (by simp [h2])]
        cases r with
        | nil => exact absurd h2 (by decide)
        | cons h r =>
          have hr3 : (s.adv (['0'] ++ [x] ++ [h])).inp = r := by simp [hi]
          have hn3 : NulFree (s.adv (['0'] ++ [x] ++ [h])).inp := by rw [hr3]; exact hn.tail.tail.tail
          rw [bind_ok (read_cons hr2 hn.tail.tail.head), adv_adv, bind_ok (run_bound _),
            bind_ok (digitsLoop_eq _ _ _ hn3 (by omega)), hr3]
          simp only [hd_cons] at h1 h2
          simp [numPiece, h1, h2, Piece.res, run_pure]
      · rw [if_pos (by simp [h2]), bind_ok (peek_eq hn2), hr2]
        simp only [hd_cons] at h1
        simp [numPiece, h1, h2, Piece.res, unexpected]
  · rw [if_neg h1, run_ite]
    by_cases h2 : c = '.'
    · rw [if_pos h2]
      subst h2
      have hp := scanFractionPartNoOmit_eq hn1
      rw [hr] at hp
      rw [show numPiece ('.' :: r) = (.floatLit, (fracNoOmitPiece r).after ['.']) by simp [numPiece]]
      exact bind_piece hp rfl
    · rw [if_neg h2, run_ite]
      by_cases h3 : hd r = '.'
      · rw [if_pos h3]
        cases r with
        | nil => exact absurd h3 (by decide)
        | cons d r =>
          have hr2 : (s.adv ([c] ++ [d])).inp = r := by simp [hi]
          have hn2 : NulFree (s.adv ([c] ++ [d])).inp := by rw [hr2]; exact hn.tail.tail
          rw [bind_ok (read_cons hr hn.tail.head), adv_adv]
          have hp := scanFractionPart_eq hn2
          rw [hr2] at hp
          rw [show numPiece (c :: d :: r) = (.floatLit, (fracPiece r).after [c, d]) by
            simp only [hd_cons] at h3
            simp [numPiece, h2, h3]]
          exact bind_piece hp rfl
      · rw [if_neg h3, run_ite]
        by_cases h4 : isExp (hd r)
        · rw [if_pos (isExp_iff.1 h4)]
          have hp := scanExponent_eq hn1 (by rw [hr]; exact h4)
          rw [hr] at hp
          rw [show numPiece (c :: r) = (.floatLit, (expPiece r).after [c]) by
            simp [numPiece, h1, h2, h3, h4]]
          exact bind_piece hp rfl
        · rw [if_neg (fun h => h4 (isExp_iff.2 h)), run_ite]
          by_cases h5 : c = '0'
          · rw [if_pos h5, bind_ok (run_bound _), bind_ok (digitsLoop_eq _ _ _ hn1 (by omega)), hr]
            have h1' : ¬ (hd r = 'x' ∨ hd r = 'X') := fun h => h1 ⟨h5, h⟩
            simp [numPiece, h1', h3, h4, h5, Piece.res, run_pure]
          · rw [if_neg h5, bind_ok (run_bound _), bind_ok (digitsLoop_eq _ _ _ hn1 (by omega)), hr,
              adv_adv]
            have hr2 : (s.adv ([c] ++ r.takeWhile isDecimalDigit)).inp = r.dropWhile isDecimalDigit := by
              simp [hi, drop_takeWhile]
            have hn2 : NulFree (s.adv ([c] ++ r.takeWhile isDecimalDigit)).inp := by
              rw [hr2]; exact nulFree_dropWhile hn.tail _
            rw [bind_ok (peek_eq hn2), hr2, run_ite]
            by_cases h6 : hd (r.dropWhile isDecimalDigit) = '.'
            · rw [if_pos h6]
              cases hd' : r.dropWhile isDecimalDigit with
              | nil => rw [hd'] at h6; exact absurd h6 (by decide)
              | cons d r' =>
                have h6' : d = '.' := by rw [hd'] at h6; exact h6
                subst h6'
                have hr3 : (s.adv ([c] ++ r.takeWhile isDecimalDigit ++ ['.'])).inp = r' := by
                  rw [← adv_adv, adv_inp, hr2, hd']; rfl
                have hn3 : NulFree (s.adv ([c] ++ r.takeWhile isDecimalDigit ++ ['.'])).inp := by
                  rw [← adv_adv, adv_inp]; exact hn2.drop _
                rw [bind_ok (read_cons (hr2.trans hd') (by decide)), adv_adv]
                have hp := scanFractionPart_eq hn3
                rw [hr3] at hp
                rw [show numPiece (c :: r) = (.floatLit, (fracPiece r').after
                    ([c] ++ r.takeWhile isDecimalDigit ++ ['.'])) by
                  simp [numPiece, h2, h3, h4, h5, hd']]
                exact bind_piece hp rfl
            · rw [if_neg h6, run_ite]
              by_cases h7 : isExp (hd (r.dropWhile isDecimalDigit))
              · rw [if_pos (isExp_iff.1 h7)]
                have hp := scanExponent_eq hn2 (by rw [hr2]; exact h7)
                rw [hr2] at hp
                rw [show numPiece (c :: r) = (.floatLit, (expPiece (r.dropWhile isDecimalDigit)).after
                    ([c] ++ r.takeWhile isDecimalDigit)) by
                  simp [numPiece, h2, h3, h4, h5, h6, h7]]
                exact bind_piece hp rfl
              · rw [if_neg (fun h => h7 (isExp_iff.2 h))]
                rw [show numPiece (c :: r) = (.intLit, (c :: r.takeWhile isDecimalDigit, none)) by
                  simp [numPiece, h2, h3, h4, h5, h6, h7]]
                rfl

end Scanner
end Verif
