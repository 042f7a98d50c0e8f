import Verif.Proofs.Advance

/-!
# The scanner as a function of the remaining text

`lex m t` describes, as a pure function of the mode and the remaining text, what `Scan` does.  The
main result is `scan_eq`: on NUL-free text, `scan` is `lex`.
-/

namespace Verif

namespace M

variable {σ ε α β : Type}

theorem run_bind (m : M σ ε α) (f : α → M σ ε β) (s : σ) :
    (m >>= f) s = match m s with
      | .ok a s' => f a s'
      | .err e s' => .err e s'
      | .halt h => .halt h := rfl

theorem bind_ok {m : M σ ε α} {f : α → M σ ε β} {s s' : σ} {a : α} (h : m s = .ok a s') :
    (m >>= f) s = f a s' := by rw [run_bind, h]

theorem bind_err {m : M σ ε α} {f : α → M σ ε β} {s s' : σ} {e : ε} (h : m s = .err e s') :
    (m >>= f) s = .err e s' := by rw [run_bind, h]

theorem bind_halt {m : M σ ε α} {f : α → M σ ε β} {s : σ} {k : Halt} (h : m s = .halt k) :
    (m >>= f) s = .halt k := by rw [run_bind, h]

theorem run_pure (a : α) (s : σ) : (Pure.pure a : M σ ε α) s = .ok a s := rfl

theorem run_get (s : σ) : (M.get : M σ ε σ) s = .ok s s := rfl
theorem run_modify (f : σ → σ) (s : σ) : (M.modify f : M σ ε Unit) s = .ok () (f s) := rfl
theorem run_throw (e : ε) (s : σ) : (M.throw e : M σ ε α) s = .err e s := rfl
theorem run_stop (k : Halt) (s : σ) : (M.stop k : M σ ε α) s = .halt k := rfl

theorem run_attempt (m : M σ ε α) (s : σ) :
    M.attempt m s = match m s with
      | .ok a s' => .ok (.ok a) s'
      | .err e s' => .ok (.error e) s'
      | .halt h => .halt h := rfl

theorem attempt_ok {m : M σ ε α} {s s' : σ} {a : α} (h : m s = .ok a s') :
    M.attempt m s = .ok (.ok a) s' := by rw [run_attempt, h]

theorem attempt_err {m : M σ ε α} {s s' : σ} {e : ε} (h : m s = .err e s') :
    M.attempt m s = .ok (.error e) s' := by rw [run_attempt, h]

theorem run_ite {c : Prop} [Decidable c] (a b : M σ ε α) (s : σ) :
    (if c then a else b) s = if c then a s else b s := by split <;> rfl

end M

/-- A rune that may continue an identifier. -/
def isIdentChar (c : Char) : Bool := isLetter c || isDecimalDigit c || c = '_'

namespace Scanner

open M

theorem run_bound (s : Scanner) : bound s = .ok (s.inp.length + 1) s := rfl

theorem eof_not_identChar : isIdentChar eof = false := by decide

theorem scanIdentLoop_eq (n : Nat) : ∀ (s : Scanner) (acc : Str), NulFree s.inp → s.inp.length < n →
    scanIdentLoop n acc s =
      .ok (acc ++ s.inp.takeWhile isIdentChar) (s.adv (s.inp.takeWhile isIdentChar)) := by
  induction n with
  | zero => intro s acc _ h; omega
  | succ n ih =>
    intro s acc hn hl
    simp only [scanIdentLoop]
    rw [bind_ok (peek_eq hn), run_ite]
    cases hi : s.inp with
    | nil =>
      have : ¬ (isLetter eof ∨ isDecimalDigit eof ∨ eof = '_') := by decide
      simp [this, run_pure]
    | cons c r =>
      rw [hi] at hn hl
      by_cases hc : isIdentChar c
      · have hc' : (isLetter c = true ∨ isDecimalDigit c = true ∨ c = '_') := by
          simpa [isIdentChar, or_assoc] using hc
        rw [if_pos (by exact hc'), bind_ok (read_cons hi hn.head), ih]
        · simp [hi, hc]
        · simpa [hi] using hn.tail
        · simp only [adv_inp, hi, List.length_cons, List.length_nil] at *; simp; omega
      · have hc' : ¬ (isLetter c = true ∨ isDecimalDigit c = true ∨ c = '_') := by
          simpa [isIdentChar, or_assoc] using hc
        rw [if_neg (by exact hc')]
        simp [hc, run_pure]

theorem scanIdent_eq {s : Scanner} {c : Char} {r : Str} (hn : NulFree s.inp) (hi : s.inp = c :: r) :
    scanIdent s = .ok (c :: r.takeWhile isIdentChar) (s.adv (c :: r.takeWhile isIdentChar)) := by
  rw [hi] at hn
  unfold scanIdent
  rw [bind_ok (read_cons hi hn.head), bind_ok (run_bound _), scanIdentLoop_eq]
  · simp [hi]
  · simpa [hi] using hn.tail
  · simp

/-! ## Comments -/

/-- What a line comment's text and its newline are, after the two slashes. -/
def lineEnd (t : Str) : Str :=
  match t.dropWhile (· ≠ '\n') with
  | [] => []
  | c :: _ => [c]

theorem lineCommentLoop_eq (n : Nat) : ∀ (s : Scanner) (ch : Char) (lit : Str), NulFree s.inp →
    ch ≠ '\n' → s.inp.length + 1 < n →
    lineCommentLoop n ch lit s =
      .ok (lit ++ [ch] ++ s.inp.takeWhile (· ≠ '\n'))
        (s.adv (s.inp.takeWhile (· ≠ '\n') ++ lineEnd s.inp)) := by
  induction n with
  | zero => intro s ch lit _ _ h; omega
  | succ n ih =>
    intro s ch lit hn hch hl
    simp only [lineCommentLoop, run_ite, if_pos hch]
    rw [bind_ok (isEOF_eq hn), run_ite]
    cases hi : s.inp with
    | nil => simp [lineEnd, run_pure]
    | cons c r =>
      rw [hi] at hn hl
      simp only [decide_eq_true_eq, reduceCtorEq, if_false]
      rw [bind_ok (read_cons hi hn.head)]
      by_cases hc : c = '\n'
      · subst hc
        obtain ⟨m, rfl⟩ : ∃ m, n = m + 1 := ⟨n - 1, by simp at hl; omega⟩
        simp [lineCommentLoop, lineEnd, run_pure]
      · rw [ih]
        · simp [hi, hc, lineEnd]
        · simpa [hi] using hn.tail
        · exact hc
        · simp only [adv_inp, hi, List.length_cons, List.length_nil] at *; simp; omega

/-- The body of a block comment up to and including the first terminator. -/
def blockBody : Str → Option Str
  | [] => none
  | c :: r =>
    if c = '*' ∧ hd r = '/' then some ['*', '/']
    else (blockBody r).map (c :: ·)

theorem blockCommentLoop_eq (n : Nat) : ∀ (s : Scanner) (ch : Char) (lit : Str), NulFree s.inp →
    s.inp.length < n →
    blockCommentLoop n ch lit s =
      match blockBody s.inp with
      | some b => .ok (lit ++ [ch] ++ b) (s.adv b)
      | none => .err (.single (s.pos.advanceAll s.inp).p "\n" (.rune eof)) (s.adv s.inp) := by
  induction n with
  | zero => intro s ch lit _ h; omega
  | succ n ih =>
    intro s ch lit hn hl
    simp only [blockCommentLoop]
    rw [bind_ok (isEOF_eq hn), run_ite]
    cases hi : s.inp with
    | nil => simp [blockBody, unexpected]
    | cons c r =>
      rw [hi] at hn hl
      have hn' : NulFree (s.adv [c]).inp := by simpa [hi] using hn.tail
      simp only [decide_eq_true_eq, reduceCtorEq, if_false]
      rw [bind_ok (read_cons hi hn.head), bind_ok (peek_eq hn'), run_ite]
      have hr : (s.adv [c]).inp = r := by simp [hi]
      rw [hr]
      by_cases hc : c = '*' ∧ hd r = '/'
      · obtain ⟨rfl, h2⟩ := hc
        cases r with
        | nil => simp [eof] at h2
        | cons d r =>
          simp only [hd_cons] at h2
          subst h2
          simp only [blockBody, and_self, if_true, hd_cons]
          rw [bind_ok (read_cons hr (by decide))]
          simp [run_pure]
      · simp only [blockBody, if_neg hc]
        rw [ih _ _ _ hn' (by simp only [adv_inp, hi, List.length_cons, List.length_nil] at *; simp; omega), hr]
        cases h : blockBody r with
        | none => simp
        | some b => simp [adv_adv]

/-- A description of a run of one of the literal scanners: the text it consumes, which on success is
also its result, and on failure the expected text and the offending rune. -/
abbrev Piece := Str × Option (String × Char)

/-- The result of a run described by a piece, with the given result value. -/
def Piece.res {α : Type} (p : Piece) (a : α) (s : Scanner) : Res Scanner Err α :=
  match p.2 with
  | none => .ok a (s.adv p.1)
  | some (e, c) => .err (.single (s.pos.advanceAll p.1).p e (.rune c)) (s.adv p.1)

theorem Piece.res_none {α : Type} {p : Piece} (h : p.2 = none) (a : α) (s : Scanner) :
    p.res a s = .ok a (s.adv p.1) := by simp [Piece.res, h]

theorem Piece.res_some {α : Type} {p : Piece} {e : String} {c : Char} (h : p.2 = some (e, c)) (a : α)
    (s : Scanner) :
    p.res a s = .err (.single (s.pos.advanceAll p.1).p e (.rune c)) (s.adv p.1) := by
  simp [Piece.res, h]

/-- A piece after a text that was consumed before. -/
def Piece.after (a : Str) (p : Piece) : Piece := (a ++ p.1, p.2)

@[simp] theorem Piece.after_after (a b : Str) (p : Piece) :
    Piece.after a (Piece.after b p) = Piece.after (a ++ b) p := by simp [Piece.after]

/-- Running `m`, which is described by `p`, after having consumed `a`, and post-processing its
result. -/
theorem bind_piece {α β : Type} {m : S α} {f : α → S β} {s : Scanner} {a : Str} {p : Piece} {x : α}
    {y : β} (h : m (s.adv a) = p.res x (s.adv a)) (hf : f x (s.adv (a ++ p.1)) = .ok y (s.adv (a ++ p.1))) :
    (m >>= f) (s.adv a) = (Piece.after a p).res y s := by
  cases hp : p.2 with
  | none =>
    rw [Piece.res_none hp] at h
    rw [bind_ok h, adv_adv, hf, Piece.res_none (by exact hp)]
    rfl
  | some ec =>
    obtain ⟨e, c⟩ := ec
    rw [Piece.res_some hp] at h
    rw [bind_err h, Piece.res_some (p := Piece.after a p) (by exact hp)]
    simp [Piece.after]

/-! ## Comments, continued -/

/-- The comment at the head of a text that starts with a slash: its literal and what is consumed. -/
def commentPiece (t : Str) : Str × Piece :=
  let r := t.tail
  if hd r = '/' then
    (c!"//" ++ r.tail.takeWhile (· ≠ '\n'),
      (c!"//" ++ r.tail.takeWhile (· ≠ '\n') ++ lineEnd r.tail, none))
  else if hd r = '*' then
    match blockBody r.tail with
    | some b => (c!"/*" ++ b, (c!"/*" ++ b, none))
    | none => ([], (t, some ("\n", eof)))
  else
    ([], (t.take 2, some ("/ or *", hd r)))

theorem scanComment_eq {s : Scanner} {r : Str} (hn : NulFree s.inp) (hi : s.inp = '/' :: r) :
    scanComment s = (commentPiece s.inp).2.res (commentPiece s.inp).1 s := by
  have hn0 := hn
  rw [hi] at hn
  unfold scanComment
  rw [bind_ok (read_cons hi hn.head)]
  have hr : (s.adv ['/']).inp = r := by simp [hi]
  cases r with
  | nil =>
    rw [bind_ok (read_nil hr), bind_ok (run_bound _)]
    simp [hi, commentPiece, unexpected, Piece.res, eof]
  | cons d r =>
    rw [bind_ok (read_cons hr hn.tail.head), bind_ok (run_bound _), adv_adv]
    have hr2 : (s.adv (['/'] ++ [d])).inp = r := by simp [hi]
    have hn2 : NulFree (s.adv (['/'] ++ [d])).inp := by rw [hr2]; exact hn.tail.tail
    rw [run_ite, hi]
    by_cases h1 : d = '/'
    · subst h1
      rw [if_pos rfl, lineCommentLoop_eq _ _ _ _ hn2 (by decide) (by simp)]
      rw [hr2]
      simp [commentPiece, Piece.res]
    · rw [if_neg h1, run_ite]
      by_cases h2 : d = '*'
      · subst h2
        rw [if_pos rfl, blockCommentLoop_eq _ _ _ _ hn2 (by simp; omega), hr2]
        cases hb : blockBody r with
        | none => simp [commentPiece, hb, Piece.res]
        | some b => simp [commentPiece, hb, Piece.res]
      · rw [if_neg h2]
        simp [commentPiece, h1, h2, unexpected, Piece.res]

/-! ## Strings -/

theorem hexDigitsLoop_eq (n : Nat) : ∀ (s : Scanner) (lit : Str), NulFree s.inp →
    hexDigitsLoop n lit s =
      .ok (lit ++ (s.inp.take n).takeWhile isHexDigit) (s.adv ((s.inp.take n).takeWhile isHexDigit)) := by
  induction n with
  | zero => intro s lit _; simp [hexDigitsLoop, run_pure]
  | succ n ih =>
    intro s lit hn
    simp only [hexDigitsLoop]
    rw [bind_ok (peek_eq hn), run_ite]
    cases hi : s.inp with
    | nil => rw [if_pos (by decide)]; simp [run_pure]
    | cons c r =>
      rw [hi] at hn
      by_cases hc : isHexDigit c
      · rw [if_neg (by simp [hc]), bind_ok (read_cons hi hn.head), ih _ _ (by simpa [hi] using hn.tail)]
        simp [hi, hc]
      · rw [if_pos (by simp [hc])]
        simp [hc, run_pure]

theorem octalDigitsLoop_eq (n : Nat) : ∀ (s : Scanner) (lit : Str), NulFree s.inp →
    octalDigitsLoop n lit s =
      .ok (lit ++ (s.inp.take n).takeWhile isOctalDigit)
        (s.adv ((s.inp.take n).takeWhile isOctalDigit)) := by
  induction n with
  | zero => intro s lit _; simp [octalDigitsLoop, run_pure]
  | succ n ih =>
    intro s lit hn
    simp only [octalDigitsLoop]
    rw [bind_ok (peek_eq hn), run_ite]
    cases hi : s.inp with
    | nil => rw [if_pos (by decide)]; simp [run_pure]
    | cons c r =>
      rw [hi] at hn
      by_cases hc : isOctalDigit c
      · rw [if_neg (by simp [hc]), bind_ok (read_cons hi hn.head), ih _ _ (by simpa [hi] using hn.tail)]
        simp [hi, hc]
      · rw [if_pos (by simp [hc])]
        simp [hc, run_pure]

/-- What an escape consumes after the backslash. -/
def escapeTail (r : Str) : Str :=
  if hd r = 'x' ∨ hd r = 'X' then hd r :: (r.tail.take 2).takeWhile isHexDigit
  else if isOctalDigit (hd r) then (r.take 3).takeWhile isOctalDigit
  else if isCharEscape (hd r) then [hd r]
  else []

theorem tryScanEscape_eq {s : Scanner} {r : Str} (hn : NulFree s.inp) (hi : s.inp = '\\' :: r) :
    tryScanEscape s = .ok ('\\' :: escapeTail r) (s.adv ('\\' :: escapeTail r)) := by
  rw [hi] at hn
  unfold tryScanEscape
  rw [bind_ok (read_cons hi hn.head)]
  have hr : (s.adv ['\\']).inp = r := by simp [hi]
  have hn2 : NulFree (s.adv ['\\']).inp := by rw [hr]; exact hn.tail
  refine (bind_ok (peek_eq hn2)).trans ?_
  rw [hr, run_ite]
  by_cases h1 : hd r = 'x' ∨ hd r = 'X'
  · rw [if_pos h1]
    cases r with
    | nil => rcases h1 with h | h <;> exact absurd h (by decide)
    | cons c r =>
      have hr3 : (s.adv (['\\'] ++ [c])).inp = r := by simp [hi]
      rw [bind_ok (read_cons hr hn.tail.head), adv_adv,
        hexDigitsLoop_eq _ _ _ (by rw [hr3]; exact hn.tail.tail)]
      simp only [hd_cons] at h1
      simp [escapeTail, h1, hi]
  · rw [if_neg h1, run_ite]
    by_cases h2 : isOctalDigit (hd r)
    · rw [if_pos h2, octalDigitsLoop_eq _ _ _ hn2]
      simp [escapeTail, h1, h2, hi]
    · rw [if_neg h2, run_ite]
      by_cases h3 : isCharEscape (hd r)
      · rw [if_pos h3]
        cases r with
        | nil => exact absurd h3 (by decide)
        | cons c r =>
          rw [bind_ok (read_cons hr hn.tail.head)]
          simp only [hd_cons] at h1 h2 h3
          simp [escapeTail, h1, h2, h3, run_pure]
      · rw [if_neg h3]
        simp [escapeTail, h1, h2, h3, run_pure]

/-- The contents of a string literal quoted by `q` after its opening quote; `esc` tells whether the
previous rune is an unescaped backslash.  There is none if the line ends first. -/
def strBody (q : Char) : Bool → Str → Option Str
  | _, [] => none
  | esc, c :: r =>
    if esc ∧ isCharEscape c then (strBody q false r).map (c :: ·)
    else if c = q then some []
    else if c = '\n' then none
    else (strBody q (decide (c = '\\')) r).map (c :: ·)

theorem strBody_append {q : Char} : ∀ {t : Str} {esc : Bool} {b : Str}, strBody q esc t = some b →
    ∃ r, t = b ++ q :: r := by
  intro t
  induction t with
  | nil => intro esc b h; simp [strBody] at h
  | cons c t ih =>
    intro esc b h
    simp only [strBody] at h
    split at h
    · simp only [Option.map_eq_some_iff] at h
      obtain ⟨b', h1, rfl⟩ := h
      obtain ⟨r, rfl⟩ := ih h1
      exact ⟨r, rfl⟩
    · split at h
      · next hc => injection h with h; subst h; exact ⟨t, by rw [hc]; rfl⟩
      · split at h
        · cases h
        · simp only [Option.map_eq_some_iff] at h
          obtain ⟨b', h1, rfl⟩ := h
          obtain ⟨r, rfl⟩ := ih h1
          exact ⟨r, rfl⟩

/-- Runes that stand for themselves in a string literal quoted by `q`. -/
def StrPlain (q : Char) (a : Str) : Prop := ∀ c ∈ a, c ≠ q ∧ c ≠ '\n' ∧ c ≠ '\\'

theorem strBody_plain {q : Char} (a : Str) (h : StrPlain q a) (r : Str) :
    strBody q false (a ++ r) = (strBody q false r).map (a ++ ·) := by
  induction a with
  | nil => simp
  | cons c a ih =>
    have hc := h c (by simp)
    have := ih (fun x hx => h x (by simp [hx]))
    simp only [List.cons_append, strBody]
    rw [if_neg (by simp), if_neg hc.1, if_neg hc.2.1, decide_eq_false hc.2.2, this]
    simp [Function.comp_def]

theorem isHexDigit_plain {q c : Char} (hq : isQuote q) (h : isHexDigit c) :
    c ≠ q ∧ c ≠ '\n' ∧ c ≠ '\\' := by
  refine ⟨?_, ?_, ?_⟩
  · rintro rfl
    simp only [isQuote, Bool.decide_or, Bool.or_eq_true, decide_eq_true_eq] at hq
    rcases hq with rfl | rfl <;> exact absurd h (by decide)
  · rintro rfl; exact absurd h (by decide)
  · rintro rfl; exact absurd h (by decide)

theorem isOctalDigit_hex {c : Char} (h : isOctalDigit c) : isHexDigit c := by
  simp only [isOctalDigit, Bool.decide_and, Bool.and_eq_true, decide_eq_true_eq] at h
  have h2 : c ≤ '9' := Nat.le_trans (m := '7'.val.toNat) (by exact h.2) (by decide)
  simp [isHexDigit, h.1, h2]

theorem isOctalDigit_escape {c : Char} (h : isOctalDigit c) : isCharEscape c = false := by
  cases hc : isCharEscape c with
  | false => rfl
  | true =>
    simp only [isCharEscape, List.mem_cons, List.not_mem_nil, or_false, decide_eq_true_eq] at hc
    rcases hc with rfl | rfl | rfl | rfl | rfl | rfl | rfl | rfl | rfl | rfl <;>
      exact absurd h (by decide)

theorem strBody_noEscape {q : Char} {r : Str} (h : isCharEscape (hd r) = false) :
    strBody q true r = strBody q false r := by
  cases r with
  | nil => rfl
  | cons c r => simp only [hd_cons] at h; simp [strBody, h]

theorem takeWhile_take_append (p : Char → Bool) (n : Nat) (r : Str) :
    ∃ r', r = (r.take n).takeWhile p ++ r' :=
  ⟨(r.take n).dropWhile p ++ r.drop n, by
    rw [← List.append_assoc, List.takeWhile_append_dropWhile, List.take_append_drop]⟩

theorem StrPlain.takeWhile {q : Char} {a : Str} (h : StrPlain q a) : ∀ c ∈ a, c ≠ '\n' :=
  fun c hc => (h c hc).2.1

theorem mem_takeWhile {p : Char → Bool} {c : Char} : ∀ {t : Str}, c ∈ t.takeWhile p → p c := by
  intro t
  induction t with
  | nil => intro h; simp at h
  | cons d t ih =>
    intro h
    rw [List.takeWhile_cons] at h
    split at h
    · next hd =>
      rcases List.mem_cons.1 h with rfl | h
      · exact hd
      · exact ih h
    · simp at h

theorem strPlain_hex {q : Char} (hq : isQuote q) (t : Str) : StrPlain q (t.takeWhile isHexDigit) :=
  fun _ hc => isHexDigit_plain hq (mem_takeWhile hc)

theorem strPlain_octal {q : Char} (hq : isQuote q) (t : Str) :
    StrPlain q (t.takeWhile isOctalDigit) :=
  fun _ hc => isHexDigit_plain hq (isOctalDigit_hex (mem_takeWhile hc))

/-- An escape is consumed whole, whichever form it has. -/
theorem strBody_escape {q : Char} (hq : isQuote q) (r : Str) :
    ∃ r', r = escapeTail r ++ r' ∧
      strBody q true r = (strBody q false r').map (escapeTail r ++ ·) ∧
      ∀ c ∈ escapeTail r, c ≠ '\n' := by
  unfold escapeTail
  by_cases h1 : hd r = 'x' ∨ hd r = 'X'
  · simp only [h1, if_true]
    cases r with
    | nil => rcases h1 with h | h <;> exact absurd h (by decide)
    | cons c r =>
      simp only [hd_cons] at h1 ⊢
      obtain ⟨r', hr'⟩ := takeWhile_take_append isHexDigit 2 r
      have hp := strPlain_hex hq (r.take 2)
      refine ⟨r', by simp [← hr'], ?_, ?_⟩
      · rw [strBody_noEscape (by rcases h1 with rfl | rfl <;> rfl)]
        have : StrPlain q (c :: (r.take 2).takeWhile isHexDigit) := by
          intro x hx
          rcases List.mem_cons.1 hx with rfl | hx
          · simp only [isQuote, Bool.decide_or, Bool.or_eq_true, decide_eq_true_eq] at hq
            rcases h1 with rfl | rfl <;> rcases hq with rfl | rfl <;> decide
          · exact hp x hx
        conv => lhs; rw [hr', ← List.cons_append]
        rw [strBody_plain _ this]
        rfl
      · intro x hx
        rcases List.mem_cons.1 hx with rfl | hx
        · rcases h1 with rfl | rfl <;> decide
        · exact hp.takeWhile x hx
  · simp only [h1, if_false]
    by_cases h2 : isOctalDigit (hd r)
    · simp only [h2, if_true]
      obtain ⟨r', hr'⟩ := takeWhile_take_append isOctalDigit 3 r
      have hp := strPlain_octal hq (r.take 3)
      refine ⟨r', hr', ?_, fun x hx => hp.takeWhile x hx⟩
      rw [strBody_noEscape (isOctalDigit_escape h2)]
      conv => lhs; rw [hr']
      exact strBody_plain _ hp _
    · simp only [h2]
      by_cases h3 : isCharEscape (hd r)
      · simp only [h3, if_true]
        cases r with
        | nil => exact absurd h3 (by decide)
        | cons c r =>
          simp only [hd_cons] at h3
          refine ⟨r, rfl, by simp [strBody, h3], ?_⟩
          intro x hx
          simp only [hd_cons] at hx
          simp only [Bool.false_eq_true, if_false, List.mem_singleton] at hx
          rintro rfl
          subst hx
          exact absurd h3 (by decide)
      · simp only [h3]
        exact ⟨r, rfl, by simpa using strBody_noEscape (by simpa using h3), by simp⟩

/-- The string literal at the head of a text that starts with the quote `q`. -/
def strPiece (t : Str) : Piece :=
  match strBody (hd t) false t.tail with
  | some b => (hd t :: b ++ [hd t], none)
  | none =>
    (hd t :: t.tail.takeWhile (· ≠ '\n'),
      some ("/[^\\0\\n\\\\]", hd (t.tail.dropWhile (· ≠ '\n'))))

theorem takeWhile_append_of_all {p : Char → Bool} {a b : Str} (h : ∀ c ∈ a, p c) :
    (a ++ b).takeWhile p = a ++ b.takeWhile p := by
  induction a with
  | nil => rfl
  | cons c a ih =>
    simp [h c (by simp), ih (fun x hx => h x (by simp [hx]))]

theorem dropWhile_append_of_all {p : Char → Bool} {a b : Str} (h : ∀ c ∈ a, p c) :
    (a ++ b).dropWhile p = b.dropWhile p := by
  induction a with
  | nil => rfl
  | cons c a ih =>
    simp [h c (by simp), ih (fun x hx => h x (by simp [hx]))]

theorem strLitLoop_eq {q : Char} (hq : isQuote q) (n : Nat) : ∀ (s : Scanner) (lit : Str),
    NulFree s.inp → s.inp.length < n →
    strLitLoop q n (hd s.inp) lit s =
      match strBody q false s.inp with
      | some b => .ok (lit ++ b) (s.adv b)
      | none =>
        .err (.single (s.pos.advanceAll (s.inp.takeWhile (· ≠ '\n'))).p "/[^\\0\\n\\\\]"
          (.rune (hd (s.inp.dropWhile (· ≠ '\n'))))) (s.adv (s.inp.takeWhile (· ≠ '\n'))) := by
  have hqe : q ≠ eof := by
    simp only [isQuote, Bool.decide_or, Bool.or_eq_true, decide_eq_true_eq] at hq
    rcases hq with rfl | rfl <;> decide
  have hqn : q ≠ '\n' := by
    simp only [isQuote, Bool.decide_or, Bool.or_eq_true, decide_eq_true_eq] at hq
    rcases hq with rfl | rfl <;> decide
  have hqb : q ≠ '\\' := by
    simp only [isQuote, Bool.decide_or, Bool.or_eq_true, decide_eq_true_eq] at hq
    rcases hq with rfl | rfl <;> decide
  induction n with
  | zero => intro s lit _ h; omega
  | succ n ih =>
    intro s lit hn hl
    simp only [strLitLoop]
    rw [run_ite]
    cases hi : s.inp with
    | nil =>
      rw [if_pos (by simpa using hqe.symm), bind_err (e := Err.single s.pos.p "/[^\\0\\n\\\\]" (.rune eof)) (s' := s)]
      · simp [strBody]
      · unfold scanCharValue
        rw [bind_ok (peek_eq hn), hi, run_ite, if_pos (by simp)]
        rfl
    | cons c r =>
      by_cases h1 : c = q
      · subst h1
        rw [if_neg (by simp)]
        simp [strBody, run_pure]
      · rw [if_pos (by simpa using h1)]
        have hc := (hi ▸ hn).head
        by_cases h2 : c = '\n'
        · subst h2
          rw [bind_err (e := Err.single s.pos.p "/[^\\0\\n\\\\]" (.rune '\n')) (s' := s)]
          · simp [strBody, h1]
          · unfold scanCharValue
            rw [bind_ok (peek_eq hn), hi, run_ite, if_pos (by simp)]
            rfl
        · by_cases h3 : c = '\\'
          · subst h3
            have hv : scanCharValue s = .ok ('\\' :: escapeTail r) (s.adv ('\\' :: escapeTail r)) := by
              unfold scanCharValue
              rw [bind_ok (peek_eq hn), run_ite, hi, if_neg (by simpa using hc), run_ite,
                if_pos (by simp), tryScanEscape_eq hn hi]
            obtain ⟨r', hr', hb, hnl⟩ := strBody_escape hq r
            have hinp : (s.adv ('\\' :: escapeTail r)).inp = r' := by
              rw [adv_inp, hi]
              simp only [List.length_cons, List.drop_succ_cons]
              have h := congrArg (List.drop (escapeTail r).length) hr'
              rwa [List.drop_left] at h
            have hn' : NulFree (s.adv ('\\' :: escapeTail r)).inp := by
              rw [adv_inp]; exact hn.drop _
            have hl' : (s.adv ('\\' :: escapeTail r)).inp.length < n := by
              rw [hinp]
              have : r.length = (escapeTail r).length + r'.length := by
                conv => lhs; rw [hr']
                simp
              simp [hi] at hl
              omega
            rw [bind_ok hv, bind_ok (peek_eq hn'), ih _ _ hn' hl', hinp]
            have hb2 : strBody q false ('\\' :: r) = (strBody q false r').map ('\\' :: escapeTail r ++ ·) := by
              simp [strBody, h1, hb, Function.comp_def]
            rw [hb2]
            cases strBody q false r' with
            | some b => simp
            | none =>
              have e1 : ('\\' :: r).takeWhile (· ≠ '\n') = '\\' :: escapeTail r ++ r'.takeWhile (· ≠ '\n') := by
                conv => lhs; rw [hr', ← List.cons_append]
                rw [takeWhile_append_of_all]
                intro x hx
                rcases List.mem_cons.1 hx with rfl | hx
                · decide
                · simpa using hnl x hx
              have e2 : ('\\' :: r).dropWhile (· ≠ '\n') = r'.dropWhile (· ≠ '\n') := by
                conv => lhs; rw [hr', ← List.cons_append]
                rw [dropWhile_append_of_all]
                intro x hx
                rcases List.mem_cons.1 hx with rfl | hx
                · decide
                · simpa using hnl x hx
              simp only [Option.map_none, e1, e2]
              simp
          · have hv : scanCharValue s = .ok [c] (s.adv [c]) := by
              unfold scanCharValue
              rw [bind_ok (peek_eq hn), run_ite, hi, if_neg (by simpa using ⟨hc, h2⟩), run_ite,
                if_neg (by simpa using h3), bind_ok (read_cons hi hc)]
              rfl
            have hinp : (s.adv [c]).inp = r := by simp [hi]
            have hn' : NulFree (s.adv [c]).inp := by rw [adv_inp]; exact hn.drop _
            rw [bind_ok hv, bind_ok (peek_eq hn'), ih _ _ hn' (by simp [hi] at hl ⊢; omega), hinp]
            simp only [strBody]
            rw [if_neg (by simp), if_neg h1, if_neg h2, decide_eq_false h3]
            cases strBody q false r with
            | some b => simp
            | none => simp [h2]

theorem scanStrLit_eq {s : Scanner} {q : Char} {r : Str} (hn : NulFree s.inp) (hq : isQuote q)
    (hi : s.inp = q :: r) : scanStrLit s = (strPiece s.inp).res (strPiece s.inp).1 s := by
  have hn2 := hn
  rw [hi] at hn2
  unfold scanStrLit
  have hr : (s.adv [q]).inp = r := by simp [hi]
  have hn' : NulFree (s.adv [q]).inp := by rw [hr]; exact hn2.tail
  rw [bind_ok (read_cons hi hn2.head), bind_ok (peek_eq hn'), bind_ok (run_bound _)]
  have h := strLitLoop_eq hq ((s.adv [q]).inp.length + 1) (s.adv [q]) [q] hn' (by omega)
  rw [hr] at h ⊢
  rw [hi]
  simp only [strPiece, hd_cons, List.tail_cons]
  cases hb : strBody q false r with
  | none =>
    rw [hb] at h
    rw [bind_err h]
    simp [Piece.res]
  | some b =>
    rw [hb] at h
    obtain ⟨r', rfl⟩ := strBody_append hb
    rw [bind_ok h, adv_adv]
    have : (s.adv ([q] ++ b)).inp = q :: r' := by simp [hi]
    rw [bind_ok (read_cons this hn2.head)]
    simp [Piece.res, run_pure]

end Scanner

end Verif
