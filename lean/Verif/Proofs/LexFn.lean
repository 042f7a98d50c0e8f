import Verif.Proofs.LexNum

/-!
# One call of `Scan` as a function of the remaining text

`lex m t` says what `Scan` consumes and returns when the remaining text is `t`.
-/

set_option backward.isDefEq.respectTransparency false
set_option backward.dsimp.instances true

namespace Verif
namespace Scanner
open M

/-- What one call of `Scan` does. -/
structure LexOut where
  /-- what is consumed before the token -/
  gap : Str := []
  /-- the comments met: what is consumed before each, and its text -/
  coms : List (Str × Str) := []
  /-- what is consumed by the token itself -/
  body : Str := []
  token : Token
  text : Str := []
  err : Option (String × Char) := none
  deriving DecidableEq, Repr

namespace LexOut

/-- The same after consuming `a` first. -/
def push (a : Str) (o : LexOut) : LexOut :=
  { o with gap := a ++ o.gap, coms := o.coms.map (fun c => (a ++ c.1, c.2)) }

/-- All that is consumed. -/
def raw (o : LexOut) : Str := o.gap ++ o.body

@[simp] theorem push_gap (a : Str) (o : LexOut) : (o.push a).gap = a ++ o.gap := rfl
@[simp] theorem push_body (a : Str) (o : LexOut) : (o.push a).body = o.body := rfl
@[simp] theorem push_token (a : Str) (o : LexOut) : (o.push a).token = o.token := rfl
@[simp] theorem push_text (a : Str) (o : LexOut) : (o.push a).text = o.text := rfl
@[simp] theorem push_err (a : Str) (o : LexOut) : (o.push a).err = o.err := rfl
@[simp] theorem push_raw (a : Str) (o : LexOut) : (o.push a).raw = a ++ o.raw := by simp [raw]
@[simp] theorem push_coms (a : Str) (o : LexOut) :
    (o.push a).coms = o.coms.map (fun c => (a ++ c.1, c.2)) := rfl

/-- The comments recorded by a call starting at `pos`. -/
def texts (o : LexOut) (pos : SPos) : List Text :=
  o.coms.map (fun c => { literal := c.2, pos := pos.advanceAll c.1 })

/-- The value returned by a call starting at `pos`. -/
def scanned (o : LexOut) (pos : SPos) : Scanned where
  token := o.token
  text := o.text
  pos := pos.advanceAll o.gap
  error := o.err.map (fun e => .single (pos.advanceAll o.raw).p e.1 (.rune e.2))

/-- The state after a call, except for the reset of `raw` at its start. -/
def state (o : LexOut) (s : Scanner) : Scanner :=
  { s.adv o.raw with comments := s.comments ++ o.texts s.pos }

@[simp] theorem state_inp (o : LexOut) (s : Scanner) :
    (o.state s).inp = s.inp.drop o.raw.length := rfl
@[simp] theorem state_raw (o : LexOut) (s : Scanner) : (o.state s).raw = s.raw ++ o.raw := rfl
@[simp] theorem state_pos (o : LexOut) (s : Scanner) :
    (o.state s).pos = s.pos.advanceAll o.raw := rfl
@[simp] theorem state_mode (o : LexOut) (s : Scanner) : (o.state s).mode = s.mode := rfl
@[simp] theorem state_comments (o : LexOut) (s : Scanner) :
    (o.state s).comments = s.comments ++ o.texts s.pos := rfl

theorem push_scanned (a : Str) (o : LexOut) (pos : SPos) :
    (o.push a).scanned pos = o.scanned (pos.advanceAll a) := by
  simp [scanned]

theorem push_state (a : Str) (o : LexOut) (s : Scanner) :
    (o.push a).state s = o.state (s.adv a) := by
  simp [state, texts, adv, List.drop_drop, Function.comp_def]

end LexOut

/-- The token of a word: scanner.go:154-164. -/
def wordToken (m : Mode) (w : Str) : Token :=
  if m.bool ∧ isBoolLit w then .boolLit
  else if m.number ∧ isFloatLitKeyword w then .floatLit
  else if m.keyword ∧ asKeywordToken w ≠ .illegal then asKeywordToken w
  else .ident

/-- A literal described by a piece. -/
def LexOut.ofPiece (tok : Token) (p : Piece) : LexOut :=
  match p.2 with
  | none => { body := p.1, token := tok, text := p.1 }
  | some e => { body := p.1, token := .illegal, err := some e }

/-- The token at the head of a text that starts neither with white space nor with a slash. -/
def tokenAt (m : Mode) (t : Str) : LexOut :=
  if t = [] then { token := .eof }
  else if isLetter (hd t) ∨ hd t = '_' then
    let w := hd t :: t.tail.takeWhile isIdentChar
    { body := w, token := wordToken m w, text := w }
  else if isQuote (hd t) ∧ m.str then .ofPiece .strLit (strPiece t)
  else if (isDecimalDigit (hd t) ∨ hd t = '.') ∧ m.number then
    .ofPiece (numPiece t).1 (numPiece t).2
  else { body := [hd t], token := asMiscToken (hd t), text := [hd t] }

/-- One call of `scan`. -/
def lexLoop (m : Mode) : Nat → Str → LexOut
  | 0, _ => { token := .illegal }
  | n + 1, t =>
    if isSpace (hd t) then (lexLoop m n t.tail).push [hd t]
    else if hd t = '/' then
      match (commentPiece t).2.2 with
      | some e => { body := (commentPiece t).2.1, token := .illegal, err := some e }
      | none =>
        if m.comment then
          { coms := [([], (commentPiece t).1)], body := (commentPiece t).2.1, token := .comment,
            text := (commentPiece t).1 }
        else
          let o := (lexLoop m n (t.drop (commentPiece t).2.1.length)).push (commentPiece t).2.1
          { o with coms := ([], (commentPiece t).1) :: o.coms }
    else tokenAt m t

/-- One call of `Scan`. -/
def lex (m : Mode) (t : Str) : LexOut := lexLoop m (t.length + 1) t

/-! ## What is consumed is a prefix -/

theorem prefix_takeWhile (p : Char → Bool) (t : Str) : t.takeWhile p <+: t :=
  ⟨t.dropWhile p, List.takeWhile_append_dropWhile⟩

theorem prefix_after {a : Str} {p : Piece} {t r : Str} (ht : t = a ++ r) (h : p.1 <+: r) :
    (p.after a).1 <+: t := by
  obtain ⟨x, rfl⟩ := h
  exact ⟨x, by simp [Piece.after, ht]⟩

theorem blockBody_prefix : ∀ {t b : Str}, blockBody t = some b → b <+: t := by
  intro t
  induction t with
  | nil => intro b h; simp [blockBody] at h
  | cons c t ih =>
    intro b h
    simp only [blockBody] at h
    split at h
    · injection h with h; subst h
      next hc =>
      cases t with
      | nil => exact absurd hc.2 (by decide)
      | cons d t =>
        simp at hc
        exact ⟨t, by simp [hc]⟩
    · simp only [Option.map_eq_some_iff] at h
      obtain ⟨b', h1, rfl⟩ := h
      obtain ⟨r, rfl⟩ := ih h1
      exact ⟨r, rfl⟩

theorem lineEnd_append (t : Str) : ∃ r, t = t.takeWhile (· ≠ '\n') ++ lineEnd t ++ r := by
  have h := List.takeWhile_append_dropWhile (p := (· ≠ '\n')) (l := t)
  unfold lineEnd
  cases hd : t.dropWhile (· ≠ '\n') with
  | nil => exact ⟨[], by rw [hd] at h; simpa using h.symm⟩
  | cons c r => exact ⟨r, by rw [hd] at h; simpa using h.symm⟩

/-- A comment consumes a prefix of the text, which starts with the slash. -/
theorem commentPiece_prefix (r : Str) :
    ∃ a x, (commentPiece ('/' :: r)).2.1 = '/' :: a ∧ r = a ++ x := by
  unfold commentPiece
  simp only [List.tail_cons]
  cases r with
  | nil => exact ⟨[], [], by simp [eof], rfl⟩
  | cons d r =>
    simp only [hd_cons, List.tail_cons]
    by_cases h : d = '/'
    · subst h
      obtain ⟨x, hx⟩ := lineEnd_append r
      rw [if_pos (by exact rfl)]
      refine ⟨'/' :: (r.takeWhile (· ≠ '\n') ++ lineEnd r), x, rfl, ?_⟩
      conv => lhs; rw [hx]
      simp
    · rw [if_neg (by exact h)]
      by_cases h : d = '*'
      · subst h
        rw [if_pos (by exact rfl)]
        cases hb : blockBody r with
        | none => exact ⟨'*' :: r, [], by simp, by simp⟩
        | some b =>
          obtain ⟨x, rfl⟩ := blockBody_prefix hb
          exact ⟨'*' :: b, x, rfl, by simp⟩
      · rw [if_neg (by exact h)]
        exact ⟨[d], r, by simp, rfl⟩

theorem strPiece_prefix (q : Char) (r : Str) :
    ∃ a x, (strPiece (q :: r)).1 = q :: a ∧ r = a ++ x := by
  unfold strPiece
  simp only [hd_cons, List.tail_cons]
  cases hb : strBody q false r with
  | none => exact ⟨_, _, rfl, (List.takeWhile_append_dropWhile (p := (· ≠ '\n'))).symm⟩
  | some b =>
    obtain ⟨x, rfl⟩ := strBody_append hb
    exact ⟨b ++ [q], x, by simp, by simp⟩

theorem decPiece_prefix (t : Str) : (decPiece t).1 <+: t := by
  unfold decPiece
  split
  · exact prefix_takeWhile _ _
  · exact ⟨t, rfl⟩

theorem hd_ne_eof {t : Str} {c : Char} (hc : c ≠ eof) (h : hd t = c) : ∃ r, t = c :: r := by
  cases t with
  | nil => exact absurd h.symm hc
  | cons d t => exact ⟨t, by simp at h; rw [h]⟩

theorem isExp_ne {c : Char} (h : isExp c) : c ≠ eof := by
  rintro rfl; exact absurd h (by decide)
theorem isSign_ne {c : Char} (h : isSign c) : c ≠ eof := by
  rintro rfl; exact absurd h (by decide)
theorem isHexDigit_ne {c : Char} (h : isHexDigit c) : c ≠ eof := by
  rintro rfl; exact absurd h (by decide)

theorem expPiece_prefix {t : Str} (h : isExp (hd t)) : (expPiece t).1 <+: t := by
  obtain ⟨r, hr⟩ := hd_ne_eof (isExp_ne h) rfl
  generalize hd t = c at *
  subst hr
  unfold expPiece
  simp only [hd_cons, List.tail_cons]
  by_cases hs : isSign (hd r)
  · rw [if_pos (by exact hs)]
    obtain ⟨r', hr⟩ := hd_ne_eof (isSign_ne hs) rfl
    generalize hd r = d at *
    subst hr
    exact prefix_after (a := [c, d]) rfl (decPiece_prefix _)
  · rw [if_neg (by exact hs)]
    exact prefix_after (a := [c]) rfl (decPiece_prefix _)

theorem optExpPiece_prefix (t : Str) : (optExpPiece t).1 <+: t := by
  unfold optExpPiece
  split
  · next h => exact expPiece_prefix h
  · exact ⟨t, rfl⟩

theorem fracPiece_prefix (t : Str) : (fracPiece t).1 <+: t :=
  prefix_after List.takeWhile_append_dropWhile.symm (optExpPiece_prefix _)

theorem fracNoOmitPiece_prefix (t : Str) : (fracNoOmitPiece t).1 <+: t := by
  unfold fracNoOmitPiece
  split
  · exact fracPiece_prefix t
  · exact decPiece_prefix t

theorem numPiece_prefix (c : Char) (r : Str) :
    ∃ a x, (numPiece (c :: r)).2.1 = c :: a ∧ r = a ++ x := by
  have key : ∀ {p : Piece}, p.1 <+: r → ∃ a x, (p.after [c]).1 = c :: a ∧ r = a ++ x := by
    rintro p ⟨x, hx⟩
    exact ⟨p.1, x, by simp [Piece.after], hx.symm⟩
  unfold numPiece
  simp only [hd_cons, List.tail_cons]
  by_cases h : c = '0' ∧ (hd r = 'x' ∨ hd r = 'X')
  · rw [if_pos (by exact h)]
    obtain ⟨r', hr⟩ : ∃ r', r = hd r :: r' := by
      rcases h.2 with h | h <;> exact hd_ne_eof (by rw [h]; decide) rfl
    generalize hd r = d at *
    subst hr
    simp only [List.tail_cons]
    by_cases h2 : isHexDigit (hd r')
    · rw [if_pos (by exact h2)]
      exact ⟨d :: r'.takeWhile isHexDigit, r'.dropWhile isHexDigit, rfl, by
        simp [List.takeWhile_append_dropWhile]⟩
    · rw [if_neg (by exact h2)]
      exact ⟨[d], r', rfl, rfl⟩
  rw [if_neg (by exact h)]
  by_cases h : c = '.'
  · rw [if_pos (by exact h)]
    exact key (fracNoOmitPiece_prefix r)
  rw [if_neg (by exact h)]
  by_cases h : hd r = '.'
  · rw [if_pos (by exact h)]
    obtain ⟨r', hr⟩ := hd_ne_eof (by decide) h
    subst hr
    exact key (p := Piece.after ['.'] (fracPiece r')) (prefix_after rfl (fracPiece_prefix r'))
  rw [if_neg (by exact h)]
  by_cases h : isExp (hd r)
  · rw [if_pos (by exact h)]
    exact key (expPiece_prefix h)
  rw [if_neg (by exact h)]
  by_cases h : c = '0'
  · rw [if_pos (by exact h)]
    exact ⟨_, _, rfl, List.takeWhile_append_dropWhile.symm⟩
  rw [if_neg (by exact h)]
  have hw := List.takeWhile_append_dropWhile (p := isDecimalDigit) (l := r)
  by_cases h : hd (r.dropWhile isDecimalDigit) = '.'
  · rw [if_pos (by exact h)]
    obtain ⟨r', hr⟩ := hd_ne_eof (by decide) h
    have := key (p := (fracPiece r').after (r.takeWhile isDecimalDigit ++ ['.']))
      (prefix_after (by rw [hr] at hw; simpa using hw.symm) (fracPiece_prefix r'))
    rw [hr]
    simpa using this
  rw [if_neg (by exact h)]
  by_cases h : isExp (hd (r.dropWhile isDecimalDigit))
  · rw [if_pos (by exact h)]
    have := key (p := (expPiece (r.dropWhile isDecimalDigit)).after (r.takeWhile isDecimalDigit))
      (prefix_after hw.symm (expPiece_prefix h))
    simpa using this
  · rw [if_neg (by exact h)]
    exact ⟨_, _, rfl, hw.symm⟩

theorem ofPiece_body (tok : Token) (p : Piece) : (LexOut.ofPiece tok p).body = p.1 := by
  unfold LexOut.ofPiece; split <;> rfl
theorem ofPiece_gap (tok : Token) (p : Piece) : (LexOut.ofPiece tok p).gap = [] := by
  unfold LexOut.ofPiece; split <;> rfl
theorem ofPiece_coms (tok : Token) (p : Piece) : (LexOut.ofPiece tok p).coms = [] := by
  unfold LexOut.ofPiece; split <;> rfl

@[simp] theorem tokenAt_gap (m : Mode) (t : Str) : (tokenAt m t).gap = [] := by
  unfold tokenAt
  repeat' split
  all_goals first | rfl | exact ofPiece_gap _ _

@[simp] theorem tokenAt_coms (m : Mode) (t : Str) : (tokenAt m t).coms = [] := by
  unfold tokenAt
  repeat' split
  all_goals first | rfl | exact ofPiece_coms _ _

/-- A token consumes a prefix of the text, and at least one rune. -/
theorem tokenAt_prefix (m : Mode) (c : Char) (r : Str) :
    ∃ a x, (tokenAt m (c :: r)).body = c :: a ∧ r = a ++ x := by
  unfold tokenAt
  simp only [hd_cons, List.tail_cons, reduceCtorEq, if_false]
  by_cases h : isLetter c ∨ c = '_'
  · rw [if_pos (by exact h)]
    exact ⟨_, _, rfl, List.takeWhile_append_dropWhile.symm⟩
  rw [if_neg (by exact h)]
  by_cases h : isQuote c ∧ m.str
  · rw [if_pos (by exact h), ofPiece_body]; exact strPiece_prefix c r
  rw [if_neg (by exact h)]
  by_cases h : (isDecimalDigit c ∨ c = '.') ∧ m.number
  · rw [if_pos (by exact h), ofPiece_body]; exact numPiece_prefix c r
  rw [if_neg (by exact h)]
  exact ⟨[], r, rfl, rfl⟩

/-! ## The equation -/

theorem attempt_piece {α : Type} {m : S α} {s : Scanner} {p : Piece} {x : α} (h : m s = p.res x s) :
    M.attempt m s = .ok (match p.2 with
      | none => .ok x
      | some (e, c) => .error (.single (s.pos.advanceAll p.1).p e (.rune c))) (s.adv p.1) := by
  cases hp : p.2 with
  | none => rw [Piece.res_none hp] at h; exact attempt_ok h
  | some ec => rw [Piece.res_some (e := ec.1) (c := ec.2) hp] at h; exact attempt_err h

theorem tokenAt_run (m : Mode) (s : Scanner) : (tokenAt m s.inp).state s = s.adv (tokenAt m s.inp).body := by
  simp [LexOut.state, LexOut.raw, LexOut.texts]
  cases s
  simp [adv]

theorem lexLoop_space {m : Mode} {n : Nat} {c : Char} {r : Str} (h : isSpace c) :
    lexLoop m (n + 1) (c :: r) = (lexLoop m n r).push [c] := by
  simp [lexLoop, h]

theorem lexLoop_token {m : Mode} {n : Nat} {t : Str} (h : ¬ isSpace (hd t)) (h' : hd t ≠ '/') :
    lexLoop m (n + 1) t = tokenAt m t := by
  simp [lexLoop, h, h']

theorem lexLoop_comment_err {m : Mode} {n : Nat} {r : Str} {e : String × Char}
    (h : (commentPiece ('/' :: r)).2.2 = some e) :
    lexLoop m (n + 1) ('/' :: r) =
      { body := (commentPiece ('/' :: r)).2.1, token := .illegal, err := some e } := by
  have : isSpace '/' = false := by decide
  simp [lexLoop, this, h]

theorem lexLoop_comment_tok {m : Mode} {n : Nat} {r : Str} (h : (commentPiece ('/' :: r)).2.2 = none)
    (hm : m.comment = true) :
    lexLoop m (n + 1) ('/' :: r) =
      { coms := [([], (commentPiece ('/' :: r)).1)], body := (commentPiece ('/' :: r)).2.1,
        token := .comment, text := (commentPiece ('/' :: r)).1 } := by
  have : isSpace '/' = false := by decide
  simp [lexLoop, this, h, hm]

theorem lexLoop_comment_skip {m : Mode} {n : Nat} {r : Str} (h : (commentPiece ('/' :: r)).2.2 = none)
    (hm : m.comment = false) :
    lexLoop m (n + 1) ('/' :: r) =
      let o := (lexLoop m n (('/' :: r).drop (commentPiece ('/' :: r)).2.1.length)).push
        (commentPiece ('/' :: r)).2.1
      { o with coms := ([], (commentPiece ('/' :: r)).1) :: o.coms } := by
  have : isSpace '/' = false := by decide
  simp [lexLoop, this, h, hm]

/-- On text without NUL, `scan` does what `lexLoop` says. -/
theorem scanLoop_eq (n : Nat) : ∀ s : Scanner, NulFree s.inp → s.inp.length < n →
    scanLoop n s =
      .ok ((lexLoop s.mode n s.inp).scanned s.pos) ((lexLoop s.mode n s.inp).state s) := by
  induction n with
  | zero => intro s _ h; omega
  | succ n ih =>
    intro s hn hl
    simp only [scanLoop]
    rw [bind_ok (peek_eq hn), bind_ok (run_get _)]
    rw [run_ite]
    by_cases h1 : isSpace (hd s.inp)
    · rw [if_pos h1]
      cases hi : s.inp with
      | nil => rw [hi] at h1; exact absurd h1 (by decide)
      | cons c r =>
        have hn' := hi ▸ hn
        rw [hi] at h1 hl
        have hr : (s.adv [c]).inp = r := by simp [hi]
        rw [bind_ok (read_cons hi hn'.head), ih (s.adv [c]) (by rw [hr]; exact hn'.tail)
          (by rw [hr]; simp at hl; omega), hr, lexLoop_space (by simpa using h1),
          LexOut.push_scanned, LexOut.push_state]
        rfl
    rw [if_neg h1, bind_ok (isEOF_eq hn), run_ite]
    by_cases h2 : s.inp = []
    · rw [if_pos (by simpa using h2)]
      have : lexLoop s.mode (n + 1) s.inp = { token := .eof } := by
        rw [h2]; simp [lexLoop, tokenAt, eof, isSpace]
      rw [this]
      simp [run_pure, LexOut.scanned, LexOut.state, LexOut.raw, LexOut.texts]
    rw [if_neg (by simpa using h2), run_ite]
    by_cases h4 : hd s.inp = '/'
    · rw [if_neg (by rw [h4]; decide), run_ite, if_pos h4]
      obtain ⟨r, hi⟩ := hd_ne_eof (by decide) h4
      have hc := attempt_piece (scanComment_eq hn hi)
      cases hp : (commentPiece s.inp).2.2 with
      | some e =>
        rw [hp] at hc
        rw [hi] at hp hc ⊢
        rw [bind_ok hc, lexLoop_comment_err hp]
        simp [run_pure, LexOut.scanned, LexOut.state, LexOut.raw, LexOut.texts]
        rfl
      | none =>
        rw [hp] at hc
        refine (bind_ok hc).trans ?_
        refine (bind_ok (run_modify _ _)).trans ?_
        rw [run_ite]
        by_cases hm : s.mode.comment
        · rw [if_pos hm]
          rw [hi] at hp ⊢
          rw [lexLoop_comment_tok hp hm]
          simp [run_pure, LexOut.scanned, LexOut.state, LexOut.raw, LexOut.texts]
        · rw [if_neg hm]
          have hm' : s.mode.comment = false := by simpa using hm
          obtain ⟨a, x, h5, h6⟩ := commentPiece_prefix r
          rw [ih]
          · simp only [adv_mode, adv_inp, adv_pos]
            rw [hi] at hp ⊢
            rw [lexLoop_comment_skip hp hm']
            generalize lexLoop s.mode n _ = o
            simp [LexOut.scanned, LexOut.state, LexOut.raw, LexOut.texts, adv, Function.comp_def, hi]
          · exact hn.drop _
          · rw [hi] at hl
            simp only [adv_inp, hi, h5, List.length_cons, List.drop_succ_cons, List.length_drop] at hl ⊢
            omega
    · have e : lexLoop s.mode (n + 1) s.inp = tokenAt s.mode s.inp := lexLoop_token h1 h4
      rw [e, tokenAt_run]
      obtain ⟨c, r, hi⟩ := List.exists_cons_of_ne_nil h2
      unfold tokenAt
      rw [if_neg h2]
      by_cases h3 : isLetter (hd s.inp) ∨ hd s.inp = '_'
      · rw [if_pos h3, if_pos h3, bind_ok (scanIdent_eq hn hi)]
        simp only [hi, hd_cons, List.tail_cons, wordToken]
        by_cases h5 : s.mode.bool ∧ isBoolLit (c :: r.takeWhile isIdentChar)
        · rw [run_ite, if_pos h5, if_pos h5]; rfl
        rw [run_ite, if_neg h5, if_neg h5]
        by_cases h5 : s.mode.number ∧ isFloatLitKeyword (c :: r.takeWhile isIdentChar)
        · rw [run_ite, if_pos h5, if_pos h5]; rfl
        rw [run_ite, if_neg h5, if_neg h5]
        by_cases h5 : s.mode.keyword ∧ asKeywordToken (c :: r.takeWhile isIdentChar) ≠ .illegal
        · rw [run_ite, if_pos h5, if_pos h5]; rfl
        rw [run_ite, if_neg h5, if_neg h5]; rfl
      rw [if_neg h3, if_neg h3, run_ite, if_neg h4, run_ite]
      by_cases h5 : isQuote (hd s.inp) ∧ s.mode.str
      · rw [if_pos h5, if_pos h5]
        have hc := attempt_piece (scanStrLit_eq hn (by rw [hi] at h5; exact h5.1) hi)
        refine (bind_ok hc).trans ?_
        cases hp : (strPiece s.inp).2 with
        | none => simp [run_pure, LexOut.ofPiece, hp, LexOut.scanned, LexOut.raw]
        | some e => simp [run_pure, LexOut.ofPiece, hp, LexOut.scanned, LexOut.raw]
      rw [if_neg h5, if_neg h5, run_ite]
      by_cases h6 : (isDecimalDigit (hd s.inp) ∨ hd s.inp = '.') ∧ s.mode.number
      · rw [if_pos h6, if_pos h6]
        have hc := attempt_piece (scanNumberLit_eq hn hi)
        refine (bind_ok hc).trans ?_
        cases hp : (numPiece s.inp).2.2 with
        | none => simp [run_pure, LexOut.ofPiece, hp, LexOut.scanned, LexOut.raw]
        | some e => simp [run_pure, LexOut.ofPiece, hp, LexOut.scanned, LexOut.raw]
      rw [if_neg h6, if_neg h6, bind_ok (read_cons hi (hi ▸ hn).head)]
      simp [run_pure, hi, LexOut.scanned, LexOut.raw]

/-- The state after a call of `Scan`. -/
def LexOut.after (o : LexOut) (s : Scanner) : Scanner := o.state { s with raw := [] }

/-- On text without NUL, `Scan` does what `lex` says. -/
theorem scan_eq {s : Scanner} (hn : NulFree s.inp) :
    scan s = .ok ((lex s.mode s.inp).scanned s.pos) ((lex s.mode s.inp).after s) := by
  unfold scan
  refine (bind_ok (run_modify _ _)).trans ?_
  rw [bind_ok (run_bound _), scanLoop_eq _ { s with raw := [] } hn (by simp)]
  rfl

end Scanner
end Verif
