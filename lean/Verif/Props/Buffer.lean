import Verif.Spec.Reader
import Verif.Proofs.Lexeme

set_option backward.isDefEq.respectTransparency false
set_option backward.dsimp.instances true

/-!
# C49: the push-back buffer and the shared column map

The model works with the text that is still to be delivered and with a stack of line ends.  Here it is
shown that nobody can tell the difference: whatever sequence of calls a client makes, the scanner with
a reader, a push-back buffer and a shared map of columns shows the same tokens, texts, positions,
errors, raw texts and comments.
-/

namespace Verif.Props

open Verif Scanner

variable {ρ : Type} {rd : RuneReader ρ}

/-- The concrete state `c` stands for the abstract state `s`. -/
structure Stand (rd : RuneReader ρ) (s : Scanner) (c : Concrete ρ) : Prop where
  inp : ∃ t, s.inp = c.buf.reverse ++ t ∧ Spec.Gives rd c.reader t ∧ c.left = t.length
  raw : s.raw = c.raw
  p : s.pos.p = c.p
  columns : ∀ i : Nat, c.columns (c.p.line - 1 - i) = s.pos.cols.getD i 0
  mode : s.mode = c.mode
  comments : s.comments.map (fun t => (t.literal, t.pos.p)) = c.comments

/-! ## The program is the model -/

theorem run_bind {α β : Type} (p : Prog α) (f : α → Prog β) (r : SPos) (s : Scanner) :
    (p.bind f).run r s =
      match p.run r s with
      | .ok a s' => (f a.1).run a.2 s'
      | .err e s' => .err e s'
      | .halt h => .halt h := by
  induction p generalizing r s with
  | ret a => rfl
  | throw e => rfl
  | stop h => rfl
  | read k ih =>
    simp only [Prog.bind, Prog.run]
    cases Scanner.read s with
    | ok c s' => exact ih c r s'
    | err e s' => rfl
    | halt h => rfl
  | peek k ih =>
    simp only [Prog.bind, Prog.run]
    cases Scanner.peek s with
    | ok c s' => exact ih c r s'
    | err e s' => rfl
    | halt h => rfl
  | bound k ih => exact ih _ r s
  | mode k ih => exact ih _ r s
  | mkErr c e k ih => exact ih _ r s
  | mark k ih => exact ih s.pos s
  | record lit k ih => exact ih r _

theorem read_ok (s : Scanner) : ∃ c s', Scanner.read s = .ok c s' := by
  unfold Scanner.read
  split
  · exact ⟨_, _, rfl⟩
  · split <;> exact ⟨_, _, rfl⟩

theorem peek_ok (s : Scanner) : ∃ c s', Scanner.peek s = .ok c s' := by
  obtain ⟨c, s', h⟩ := read_ok s
  show ∃ c s', M.bind _ _ s = .ok c s'
  unfold M.bind
  rw [h]
  by_cases hc : c = eof
  · exact ⟨c, s', by simp [hc]; rfl⟩
  · exact ⟨c, Scanner.unread c { s' with raw := s'.raw.dropLast }, by simp [hc]; rfl⟩

theorem run_attempt_bind {α β : Type} (p : Prog α) (f : α → Prog β) (r : SPos) (s : Scanner) :
    (p.bind f).attempt.run r s =
      match p.attempt.run r s with
      | .ok (.ok a, r') s' => (f a).attempt.run r' s'
      | .ok (.error e, r') s' => .ok (.error e, r') s'
      | .err e s' => .err e s'
      | .halt h => .halt h := by
  induction p generalizing r s with
  | ret a => rfl
  | throw e => rfl
  | stop h => rfl
  | read k ih =>
    obtain ⟨c, s', h⟩ := read_ok s
    simp only [Prog.bind, Prog.attempt, Prog.run, h]
    exact ih c r s'
  | peek k ih =>
    obtain ⟨c, s', h⟩ := peek_ok s
    simp only [Prog.bind, Prog.attempt, Prog.run, h]
    exact ih c r s'
  | bound k ih => exact ih _ r s
  | mode k ih => exact ih _ r s
  | mkErr c e k ih => exact ih _ r s
  | mark k ih => exact ih s.pos s
  | record lit k ih => exact ih r _

theorem run_of_attempt {α : Type} (p : Prog α) (r : SPos) (s : Scanner) :
    p.run r s =
      match p.attempt.run r s with
      | .ok (.ok a, r') s' => .ok (a, r') s'
      | .ok (.error e, _) s' => .err e s'
      | .err e s' => .err e s'
      | .halt h => .halt h := by
  induction p generalizing r s with
  | ret a => rfl
  | throw e => rfl
  | stop h => rfl
  | read k ih =>
    obtain ⟨c, s', h⟩ := read_ok s
    simp only [Prog.attempt, Prog.run, h]
    exact ih c r s'
  | peek k ih =>
    obtain ⟨c, s', h⟩ := peek_ok s
    simp only [Prog.attempt, Prog.run, h]
    exact ih c r s'
  | bound k ih => exact ih _ r s
  | mode k ih => exact ih _ r s
  | mkErr c e k ih => exact ih _ r s
  | mark k ih => exact ih s.pos s
  | record lit k ih => exact ih r _

/-- The program `p` computes `m` and leaves `startPos` alone. -/
def Den {α : Type} (p : Prog α) (m : S α) : Prop :=
  ∀ r s, p.attempt.run r s =
    match m s with
    | .ok a s' => .ok (.ok a, r) s'
    | .err e s' => .ok (.error e, r) s'
    | .halt h => .halt h

theorem Den.run {α : Type} {p : Prog α} {m : S α} (h : Den p m) (r : SPos) (s : Scanner) :
    p.run r s =
      match m s with
      | .ok a s' => .ok (a, r) s'
      | .err e s' => .err e s'
      | .halt h => .halt h := by
  rw [run_of_attempt, h r s]
  cases m s <;> rfl

theorem Den.bind {α β : Type} {p : Prog α} {m : S α} {f : α → Prog β} {g : α → S β}
    (h : Den p m) (hf : ∀ a, Den (f a) (g a)) : Den (p >>= f) (m >>= g) := by
  intro r s
  show (p.bind f).attempt.run r s = _
  rw [run_attempt_bind, h r s]
  show _ = match M.bind m g s with
    | .ok a s' => _
    | .err e s' => _
    | .halt h => _
  unfold M.bind
  cases m s with
  | ok a s' => exact hf a r s'
  | err e s' => rfl
  | halt h => rfl

theorem Den.pure {α : Type} (a : α) : Den (Pure.pure a : Prog α) (Pure.pure a : S α) := fun _ _ => rfl
theorem Den.stop {α : Type} (h : Halt) : Den (Prog.stop h : Prog α) (M.stop h : S α) := fun _ _ => rfl
theorem Den.unexpected {α : Type} (c : Char) (e : String) :
    Den (Prog.unexpected c e : Prog α) (Scanner.unexpected c e : S α) := fun _ _ => rfl
theorem Den.fuel : Den Prog.fuel Scanner.bound := fun _ _ => rfl

theorem Den.getc : Den Prog.getc Scanner.read := by
  intro r s
  obtain ⟨c, s', h⟩ := read_ok s
  simp only [Prog.getc, Prog.attempt, Prog.run, h]

theorem Den.look : Den Prog.look Scanner.peek := by
  intro r s
  obtain ⟨c, s', h⟩ := peek_ok s
  simp only [Prog.look, Prog.attempt, Prog.run, h]

theorem Den.atEOF : Den Prog.atEOF Scanner.isEOF := Den.look.bind fun _ => Den.pure _

theorem Den.ite {α : Type} {c : Prop} [Decidable c] {p q : Prog α} {m n : S α}
    (h : Den p m) (h' : Den q n) : Den (if c then p else q) (if c then m else n) := by
  by_cases hc : c
  · rw [if_pos hc, if_pos hc]; exact h
  · rw [if_neg hc, if_neg hc]; exact h'

/-- Walk through both programs. -/
macro "den" : tactic => `(tactic| repeat' first
  | assumption
  | exact Den.getc | exact Den.look | exact Den.fuel | exact Den.atEOF | exact Den.pure _
  | exact Den.stop _ | exact Den.unexpected _ _
  | refine Den.ite ?_ ?_
  | refine Den.bind ?_ (fun _ => ?_))

theorem den_identLoop (n : Nat) (t : Str) :
    Den (Prog.scanIdentLoop n t) (Scanner.scanIdentLoop n t) := by
  induction n generalizing t with
  | zero => exact Den.stop _
  | succ n ih =>
    unfold Prog.scanIdentLoop Scanner.scanIdentLoop
    den
    all_goals exact ih _

theorem den_ident : Den Prog.scanIdent Scanner.scanIdent := by
  unfold Prog.scanIdent Scanner.scanIdent
  den
  exact den_identLoop _ _

theorem den_lineComment (n : Nat) (c : Char) (t : Str) :
    Den (Prog.lineCommentLoop n c t) (Scanner.lineCommentLoop n c t) := by
  induction n generalizing c t with
  | zero => exact Den.stop _
  | succ n ih =>
    unfold Prog.lineCommentLoop Scanner.lineCommentLoop
    den
    all_goals exact ih _ _

theorem den_blockComment (n : Nat) (c : Char) (t : Str) :
    Den (Prog.blockCommentLoop n c t) (Scanner.blockCommentLoop n c t) := by
  induction n generalizing c t with
  | zero => exact Den.stop _
  | succ n ih =>
    unfold Prog.blockCommentLoop Scanner.blockCommentLoop
    den
    all_goals exact ih _ _

theorem den_comment : Den Prog.scanComment Scanner.scanComment := by
  unfold Prog.scanComment Scanner.scanComment
  den
  · exact den_lineComment _ _ _
  · exact den_blockComment _ _ _

theorem den_hex (n : Nat) (t : Str) : Den (Prog.hexDigitsLoop n t) (Scanner.hexDigitsLoop n t) := by
  induction n generalizing t with
  | zero => exact Den.pure _
  | succ n ih =>
    unfold Prog.hexDigitsLoop Scanner.hexDigitsLoop
    den
    all_goals exact ih _

theorem den_octal (n : Nat) (t : Str) :
    Den (Prog.octalDigitsLoop n t) (Scanner.octalDigitsLoop n t) := by
  induction n generalizing t with
  | zero => exact Den.pure _
  | succ n ih =>
    unfold Prog.octalDigitsLoop Scanner.octalDigitsLoop
    den
    all_goals exact ih _

theorem den_escape : Den Prog.tryScanEscape Scanner.tryScanEscape := by
  have h := den_hex
  have h' := den_octal
  unfold Prog.tryScanEscape Scanner.tryScanEscape
  den

theorem den_charValue : Den Prog.scanCharValue Scanner.scanCharValue := by
  unfold Prog.scanCharValue Scanner.scanCharValue
  den

theorem den_strLoop (q : Char) (n : Nat) (c : Char) (t : Str) :
    Den (Prog.strLitLoop q n c t) (Scanner.strLitLoop q n c t) := by
  induction n generalizing c t with
  | zero => exact Den.stop _
  | succ n ih =>
    unfold Prog.strLitLoop Scanner.strLitLoop
    refine Den.ite (den_charValue.bind fun _ => Den.look.bind fun _ => ih _ _) (Den.pure _)

theorem den_str : Den Prog.scanStrLit Scanner.scanStrLit :=
  Den.getc.bind fun _ => Den.look.bind fun _ => Den.fuel.bind fun _ =>
    (den_strLoop _ _ _ _).bind fun _ => Den.getc.bind fun _ => Den.pure _

theorem den_digits (cls : Char → Bool) (n : Nat) (t : Str) :
    Den (Prog.digitsLoop cls n t) (Scanner.digitsLoop cls n t) := by
  induction n generalizing t with
  | zero => exact Den.stop _
  | succ n ih =>
    unfold Prog.digitsLoop Scanner.digitsLoop
    den
    all_goals exact ih _

theorem den_decimals : Den Prog.scanDecimals Scanner.scanDecimals := by
  unfold Prog.scanDecimals Scanner.scanDecimals
  den
  exact den_digits _ _ _

theorem den_exponent : Den Prog.scanExponent Scanner.scanExponent := by
  have h := den_decimals
  unfold Prog.scanExponent Scanner.scanExponent
  den

theorem den_noOmit : Den Prog.scanFractionPartNoOmit Scanner.scanFractionPartNoOmit := by
  have h := den_decimals
  have h' := den_exponent
  unfold Prog.scanFractionPartNoOmit Scanner.scanFractionPartNoOmit
  den

theorem den_fractionExp (t : Str) : Den (Prog.scanFractionExp t) (Scanner.scanFractionExp t) := by
  have h' := den_exponent
  unfold Prog.scanFractionExp Scanner.scanFractionExp
  den

theorem den_fraction : Den Prog.scanFractionPart Scanner.scanFractionPart := by
  have h := den_decimals
  unfold Prog.scanFractionPart Scanner.scanFractionPart
  den

theorem den_number : Den Prog.scanNumberLit Scanner.scanNumberLit := by
  have h1 := den_noOmit
  have h2 := den_fraction
  have h3 := den_exponent
  unfold Prog.scanNumberLit Scanner.scanNumberLit
  den
  all_goals exact den_digits _ _ _

/-- What a finished scan shows: token, text, error and position. -/
def shown : Res Scanner Err Scanner.Scanned → Res Scanner Err (Prog.Out × SPos)
  | .ok x s => .ok ((x.token, x.text, x.error), x.pos) s
  | .err e s => .err e s
  | .halt h => .halt h

/-- With `startPos = r` the program `p` shows what `m` returns. -/
def Shows (r : SPos) (p : Prog Prog.Out) (m : S Scanner.Scanned) : Prop :=
  ∀ s, p.run r s = shown (m s)

theorem Shows.bind {α : Type} {r : SPos} {p : Prog α} {m : S α} {f : α → Prog Prog.Out}
    {g : α → S Scanner.Scanned} (h : Den p m) (hf : ∀ a, Shows r (f a) (g a)) :
    Shows r (p >>= f) (m >>= g) := by
  intro s
  show (p.bind f).run r s = shown (M.bind m g s)
  rw [run_bind, h.run]
  unfold M.bind
  cases m s with
  | ok a s' => exact hf a s'
  | err e s' => rfl
  | halt h => rfl

theorem Shows.attempt {α : Type} {r : SPos} {p : Prog α} {m : S α} {f : Except Err α → Prog Prog.Out}
    {g : Except Err α → S Scanner.Scanned} (h : Den p m) (hf : ∀ a, Shows r (f a) (g a)) :
    Shows r (p.attempt >>= f) (M.attempt m >>= g) := by
  intro s
  show (p.attempt.bind f).run r s = shown (M.bind (M.attempt m) g s)
  rw [run_bind, h r s]
  unfold M.bind M.attempt
  cases m s with
  | ok a s' => exact hf _ s'
  | err e s' => exact hf _ s'
  | halt h => rfl

theorem Shows.ite {r : SPos} {c : Prop} [Decidable c] {p q : Prog Prog.Out} {m n : S Scanner.Scanned}
    (h : Shows r p m) (h' : Shows r q n) : Shows r (if c then p else q) (if c then m else n) := by
  by_cases hc : c
  · rw [if_pos hc, if_pos hc]; exact h
  · rw [if_neg hc, if_neg hc]; exact h'

theorem Shows.ret {r : SPos} (t : Token) (x : Str) (e : Option Err) :
    Shows r (Pure.pure (t, x, e)) (Pure.pure { token := t, text := x, pos := r, error := e }) :=
  fun _ => rfl

theorem Shows.mark {r : SPos} {k : Mode → Prog Prog.Out} {g : Scanner → S Scanner.Scanned}
    (h : ∀ s, Shows s.pos (k s.mode) (g s)) :
    Shows r (Prog.mark (Prog.mode Prog.ret >>= k)) (M.get >>= g) := fun s => h s s

theorem Shows.record {r : SPos} {lit : Str} {k : Prog Prog.Out} {g : S Scanner.Scanned}
    (h : Shows r k g) : Shows r (Prog.record lit k)
      (M.modify (fun s => { s with comments := s.comments ++ [{ literal := lit, pos := r }] }) >>=
        fun _ => g) := fun s => h { s with comments := s.comments ++ [{ literal := lit, pos := r }] }

theorem shows_loop (n : Nat) (r : SPos) : Shows r (Prog.scanLoop n) (Scanner.scanLoop n) := by
  induction n generalizing r with
  | zero => intro s; rfl
  | succ n ih =>
    unfold Prog.scanLoop Scanner.scanLoop
    refine Shows.bind Den.look fun ch => Shows.mark fun s => ?_
    refine Shows.ite (Shows.bind Den.getc fun _ => ih _) ?_
    refine Shows.bind Den.atEOF fun _ => Shows.ite (Shows.ret _ _ _) ?_
    refine Shows.ite (Shows.bind den_ident fun _ => Shows.ite (Shows.ret _ _ _)
      (Shows.ite (Shows.ret _ _ _) (Shows.ite (Shows.ret _ _ _) (Shows.ret _ _ _)))) ?_
    refine Shows.ite (Shows.attempt den_comment fun x => ?_) ?_
    · cases x with
      | error e => exact Shows.ret _ _ _
      | ok lit => exact Shows.record (Shows.ite (Shows.ret _ _ _) (ih _))
    refine Shows.ite (Shows.attempt den_str fun x => ?_) ?_
    · cases x with
      | error e => exact Shows.ret _ _ _
      | ok lit => exact Shows.ret _ _ _
    refine Shows.ite (Shows.attempt den_number fun x => ?_) ?_
    · cases x with
      | error e => exact Shows.ret _ _ _
      | ok lit => exact Shows.ret _ _ _
    · exact Shows.bind Den.getc fun _ => Shows.ret _ _ _

/-- `Scanner.scan` is the program `Prog.scan` behind the reset of the raw text. -/
theorem scan_is_prog (r : SPos) (s : Scanner) :
    Prog.scan.run r { s with raw := [] } = shown (Scanner.scan s) :=
  Shows.bind Den.fuel (fun n => shows_loop n r) { s with raw := [] }

/-! ## Every program shows the same on both states -/

theorem stand_put (m : Int → Int) (k v j : Int) : Concrete.put m k v j = if j = k then v else m j := rfl

theorem stand_advance {pos : SPos} {p : Position} {m : Int → Int} (ch : Char) (hp : pos.p = p)
    (hm : ∀ i : Nat, m (p.line - 1 - i) = pos.cols.getD i 0) :
    (pos.advance ch).p = (Concrete.advance p m ch).1 ∧
      ∀ i : Nat, (Concrete.advance p m ch).2 ((Concrete.advance p m ch).1.line - 1 - i) =
        (pos.advance ch).cols.getD i 0 := by
  subst hp
  unfold SPos.advance Concrete.advance
  by_cases hc : ch = '\n'
  · rw [if_pos hc, if_pos hc]
    refine ⟨rfl, fun i => ?_⟩
    cases i with
    | zero => simp [Concrete.put]
    | succ i =>
      have := hm i
      simp only [Concrete.put, List.getD_cons_succ]
      rw [if_neg (by omega), ← this]
      congr 1
      omega
  · rw [if_neg hc, if_neg hc]
    exact ⟨rfl, hm⟩

theorem stand_revert {pos : SPos} {p : Position} {m : Int → Int} (ch : Char) (hp : pos.p = p)
    (hm : ∀ i : Nat, m (p.line - 1 - i) = pos.cols.getD i 0) :
    (pos.revert ch).p = Concrete.revert p m ch ∧
      ∀ i : Nat, m ((Concrete.revert p m ch).line - 1 - i) = (pos.revert ch).cols.getD i 0 := by
  subst hp
  unfold SPos.revert Concrete.revert
  by_cases hc : ch = '\n'
  · rw [if_pos hc, if_pos hc]
    have h0 : m (pos.p.line - 1) = pos.cols.headD 0 := by
      have := hm 0
      simp only [Int.natCast_zero, Int.sub_zero] at this
      rw [this]; cases pos.cols <;> rfl
    refine ⟨by rw [h0], fun i => ?_⟩
    have := hm (i + 1)
    show m (pos.p.line - 1 - 1 - i) = pos.cols.tail.getD i 0
    have e : pos.p.line - 1 - 1 - (i : Int) = pos.p.line - 1 - ((i + 1 : Nat) : Int) := by omega
    rw [e, this]
    cases pos.cols with
    | nil => rfl
    | cons a l => rfl
  · rw [if_neg hc, if_neg hc]
    exact ⟨rfl, hm⟩

theorem stand_read {s : Scanner} {c : Concrete ρ} (h : Stand rd s c) :
    ∃ s', Scanner.read s = .ok (Concrete.read rd c).1 s' ∧ Stand rd s' (Concrete.read rd c).2 := by
  obtain ⟨inp, raw, pos, mode, comments⟩ := s
  obtain ⟨reader, left, buf, raw', p, columns, mode', comments'⟩ := c
  obtain ⟨⟨t, h1, hg, hl⟩, h2, h3, h4, h5, h6⟩ := h
  simp only at h1 hg hl h2 h3 h4 h5 h6
  have key : ∀ (ch : Char) (rest buf' t' : Str) (reader' : ρ) (left' : Nat), rest = buf'.reverse ++ t' →
      Spec.Gives rd reader' t' → left' = t'.length →
      ∃ s', Scanner.read ⟨ch :: rest, raw, pos, mode, comments⟩ = .ok ch s' ∧
        Stand rd s' (if ch = eof then ⟨reader', left', buf', raw', p, columns, mode', comments'⟩ else
          ⟨reader', left', buf', raw' ++ [ch], (Concrete.advance p columns ch).1,
            (Concrete.advance p columns ch).2, mode', comments'⟩) := by
    intro ch rest buf' t' reader' left' hr hg hl
    unfold Scanner.read
    by_cases hc : ch = eof
    · simp only [if_pos hc]
      exact ⟨_, by rw [hc], ⟨⟨t', hr, hg, hl⟩, h2, h3, h4, h5, h6⟩⟩
    · simp only [if_neg hc]
      obtain ⟨a, b⟩ := stand_advance ch h3 h4
      exact ⟨_, rfl, ⟨⟨t', hr, hg, hl⟩, by rw [h2], a, b, h5, h6⟩⟩
  unfold Concrete.read Concrete.pop
  rcases List.eq_nil_or_concat buf with rfl | ⟨buf', ch, rfl⟩
  · simp only [List.getLast?_nil]
    cases t with
    | nil =>
      subst h1
      obtain ⟨e, hg⟩ := hg.nil
      generalize rd.readRune reader = x at e hg
      obtain ⟨o, r⟩ := x
      subst e
      exact ⟨_, rfl, ⟨⟨[], rfl, hg, by simp [hl]⟩, h2, h3, h4, h5, h6⟩⟩
    | cons ch rest =>
      subst h1
      obtain ⟨e, hg⟩ := hg.cons
      generalize rd.readRune reader = x at e hg
      obtain ⟨o, r⟩ := x
      obtain ⟨s', e', st⟩ := key ch rest [] rest r (left - 1) rfl hg (by simp [hl])
      cases o with
      | none =>
        simp only [Option.getD_none] at e
        subst e
        exact ⟨s', e', st⟩
      | some c =>
        simp only [Option.getD_some] at e
        subst e
        refine ⟨s', ?_, ?_⟩
        · by_cases hc : c = eof
          · simp only [if_pos hc]; exact e'
          · simp only [if_neg hc]; exact e'
        · by_cases hc : c = eof
          · simp only [if_pos hc] at st ⊢; exact st
          · simp only [if_neg hc] at st ⊢; exact st
  · have hi : inp = ch :: (buf'.reverse ++ t) := by rw [h1]; simp
    subst hi
    obtain ⟨s', e, st⟩ := key ch _ buf' t reader left rfl hg hl
    simp only [List.concat_eq_append, List.getLast?_append, List.getLast?_singleton, Option.some_or, List.dropLast_concat]
    refine ⟨s', ?_, ?_⟩
    · by_cases hc : ch = eof
      · simp only [if_pos hc]; exact e
      · simp only [if_neg hc]; exact e
    · by_cases hc : ch = eof
      · simp only [if_pos hc] at st ⊢; exact st
      · simp only [if_neg hc] at st ⊢; exact st

theorem stand_unread {s : Scanner} {c : Concrete ρ} (ch : Char) (h : Stand rd s c) :
    Stand rd (Scanner.unread ch s) (Concrete.unread ch c) := by
  obtain ⟨h1, h2, h3, h4, h5, h6⟩ := h
  obtain ⟨a, b⟩ := stand_revert ch h3 h4
  obtain ⟨t, h1, hg, hl⟩ := h1
  exact ⟨⟨t, by simp [Scanner.unread, Concrete.unread, h1], hg, hl⟩, h2, a, b, h5, h6⟩

theorem stand_peek {s : Scanner} {c : Concrete ρ} (h : Stand rd s c) :
    ∃ s', Scanner.peek s = .ok (Concrete.peek rd c).1 s' ∧ Stand rd s' (Concrete.peek rd c).2 := by
  obtain ⟨s', e, st⟩ := stand_read h
  have e' : Scanner.peek s = (if (Concrete.read rd c).1 ≠ eof then
      (do M.modify (fun s => Scanner.unread (Concrete.read rd c).1 { s with raw := s.raw.dropLast })
          return (Concrete.read rd c).1 : S Char) else return (Concrete.read rd c).1) s' := by
    show M.bind _ _ s = _
    unfold M.bind
    rw [e]
  rw [e']
  unfold Concrete.peek
  by_cases hc : (Concrete.read rd c).1 ≠ eof
  · rw [if_pos hc]
    simp only [if_pos hc]
    refine ⟨_, rfl, stand_unread _ ?_⟩
    exact ⟨st.inp, by simp [st.raw], st.p, st.columns, st.mode, st.comments⟩
  · rw [if_neg hc]
    simp only [if_neg hc]
    exact ⟨s', rfl, st⟩

theorem stand_unScan {s : Scanner} {c : Concrete ρ} (h : Stand rd s c) :
    Stand rd (Scanner.unScan s) (Concrete.unScan c) := by
  unfold Scanner.unScan Concrete.unScan
  rw [h.raw]
  generalize c.raw.reverse = l
  induction l generalizing s c with
  | nil => exact h
  | cons ch l ih => exact ih (stand_unread ch h)

/-- The two outcomes show the same. -/
def SameRes (rd : RuneReader ρ) {α : Type} : Res Scanner Err (α × SPos) → Res (Concrete ρ) Err (α × Position) → Prop
  | .ok a s, .ok b c => a.1 = b.1 ∧ a.2.p = b.2 ∧ Stand rd s c
  | .err e s, .err e' c => e = e' ∧ Stand rd s c
  | .halt h, .halt h' => h = h'
  | _, _ => False

/-- Every program over the primitive operations shows the same on both states. -/
theorem run_same {α : Type} (p : Prog α) {r : SPos} {r' : Position} {s : Scanner} {c : Concrete ρ}
    (hr : r.p = r') (h : Stand rd s c) : SameRes rd (p.run r s) (Concrete.run rd p r' c) := by
  induction p generalizing r r' s c with
  | ret a => exact ⟨rfl, hr, h⟩
  | throw e => exact ⟨rfl, h⟩
  | stop h => rfl
  | read k ih =>
    obtain ⟨s', e, st⟩ := stand_read h
    simp only [Prog.run, Concrete.run, e]
    exact ih _ hr st
  | peek k ih =>
    obtain ⟨s', e, st⟩ := stand_peek h
    simp only [Prog.run, Concrete.run, e]
    exact ih _ hr st
  | bound k ih =>
    simp only [Prog.run, Concrete.run]
    have e : s.inp.length = c.buf.length + c.left := by
      obtain ⟨t, h1, _, hl⟩ := h.inp
      rw [h1, hl]; simp
    rw [e]
    exact ih _ hr h
  | mode k ih =>
    simp only [Prog.run, Concrete.run]
    rw [h.mode]
    exact ih _ hr h
  | mkErr ch e k ih =>
    simp only [Prog.run, Concrete.run]
    rw [h.p]
    exact ih _ hr h
  | mark k ih => exact ih h.p h
  | record lit k ih =>
    refine ih hr ⟨h.inp, h.raw, h.p, h.columns, h.mode, ?_⟩
    simp [h.comments, hr]

/-! ## A copy of a position writes to the map of the scanner -/

theorem bulk_p {q : SPos} {p : Position} (h : q.p = p) (m : Int → Int) (t : Str) :
    (q.advanceAll t).p = (Concrete.advanceAll p m t).1 := by
  induction t generalizing q p m with
  | nil => exact h
  | cons ch t ih =>
    have e : (q.advance ch).p = (Concrete.advance p m ch).1 := by
      subst h
      unfold SPos.advance Concrete.advance
      by_cases hc : ch = '\n'
      · rw [if_pos hc, if_pos hc]
      · rw [if_neg hc, if_neg hc]
    exact ih e _

theorem concrete_advanceAll_append (p : Position) (m : Int → Int) (a b : Str) :
    Concrete.advanceAll p m (a ++ b) =
      Concrete.advanceAll (Concrete.advanceAll p m a).1 (Concrete.advanceAll p m a).2 b := by
  induction a generalizing p m with
  | nil => rfl
  | cons ch a ih => exact ih _ _

/-- The position that `AdvancedBulk` returns does not depend on what is in the shared map. -/
theorem bulk_result {q : SPos} {p : Position} (h : q.p = p) (t : Str) (c : Concrete ρ) :
    (q.advancedBulk t).p = (Concrete.advancedBulk p t c).1 := by
  unfold SPos.advancedBulk Concrete.advancedBulk
  rcases List.eq_nil_or_concat t with rfl | ⟨t, ch, rfl⟩
  · subst h
    show (SPos.revert q (Char.ofNat 0xFFFD)).p = Concrete.revert q.p c.columns (Char.ofNat 0xFFFD)
    unfold SPos.revert Concrete.revert
    rw [if_neg (by decide), if_neg (by decide)]
  · simp only [List.concat_eq_append, List.getLastD_concat, SPos.advanceAll_append,
      concrete_advanceAll_append]
    have e := bulk_p h c.columns t
    generalize q.advanceAll t = q1 at e
    generalize Concrete.advanceAll p c.columns t = r1 at e
    obtain ⟨p1, m1⟩ := r1
    simp only at e
    subst e
    show ((q1.advance ch).revert ch).p =
      Concrete.revert (Concrete.advance q1.p m1 ch).1 (Concrete.advance q1.p m1 ch).2 ch
    unfold SPos.advance Concrete.advance
    by_cases hc : ch = '\n'
    · rw [if_pos hc, if_pos hc]
      simp [SPos.revert, Concrete.revert, hc, Concrete.put]
    · rw [if_neg hc, if_neg hc]
      simp [SPos.revert, Concrete.revert, hc]

theorem advanceAll_cols (q : SPos) (t : Str) :
    ∃ pre, (q.advanceAll t).cols = pre ++ q.cols ∧ (q.advanceAll t).p.line = q.p.line + pre.length := by
  induction t generalizing q with
  | nil => exact ⟨[], rfl, by simp⟩
  | cons ch t ih =>
    obtain ⟨pre, h1, h2⟩ := ih (q.advance ch)
    rw [SPos.advanceAll_cons, h1, h2]
    unfold SPos.advance
    by_cases hc : ch = '\n'
    · rw [if_pos hc]
      exact ⟨pre ++ [q.p.column], by simp, by simp; omega⟩
    · rw [if_neg hc]
      exact ⟨pre, rfl, rfl⟩

/-- Advancing a copy of an earlier position over text that the scanner has passed since rewrites what
is in the map. -/
theorem bulk_columns {q : SPos} {p : Position} (h : q.p = p) (t more : Str) (m : Int → Int) {pos : SPos}
    (hp : pos = q.advanceAll (t ++ more))
    (hm : ∀ i : Nat, m (pos.p.line - 1 - i) = pos.cols.getD i 0) :
    ∀ i : Nat, (Concrete.advanceAll p m t).2 (pos.p.line - 1 - i) = pos.cols.getD i 0 := by
  induction t generalizing q p m with
  | nil => exact hm
  | cons ch t ih =>
    subst h
    have e : (q.advance ch).p = (Concrete.advance q.p m ch).1 := bulk_p (t := [ch]) rfl m
    refine ih e _ hp fun i => ?_
    by_cases hc : ch = '\n'
    · have hq : q.advance ch =
          ⟨{ q.p with offset := q.p.offset + ch.utf8Size, line := q.p.line + 1, column := 1 },
            q.p.column :: q.cols⟩ := by unfold SPos.advance; rw [if_pos hc]
      have hm' : (Concrete.advance q.p m ch).2 = Concrete.put m q.p.line q.p.column := by
        unfold Concrete.advance; rw [if_pos hc]
      obtain ⟨pre, h1, h2⟩ := advanceAll_cols (q.advance ch) (t ++ more)
      rw [List.cons_append, SPos.advanceAll_cons] at hp
      rw [← hp, hq] at h1 h2
      simp only at h1 h2
      rw [hm']
      unfold Concrete.put
      by_cases hi : pos.p.line - 1 - (i : Int) = q.p.line
      · rw [if_pos hi]
        have : i = pre.length := by omega
        rw [h1, this]
        simp
      · rw [if_neg hi]
        exact hm i
    · have hm' : (Concrete.advance q.p m ch).2 = m := by
        unfold Concrete.advance; rw [if_neg hc]
      rw [hm']
      exact hm i

theorem stand_bulk {q : SPos} {p : Position} (h : q.p = p) (t more : Str) {s : Scanner} {c : Concrete ρ}
    (hs : s.pos = q.advanceAll (t ++ more)) (st : Stand rd s c) :
    Stand rd s (Concrete.advancedBulk p t c).2 := by
  have hc : ∀ i : Nat, c.columns (s.pos.p.line - 1 - i) = s.pos.cols.getD i 0 := by
    rw [st.p]; exact st.columns
  have := bulk_columns h t more c.columns hs hc
  rw [st.p] at this
  exact ⟨st.inp, st.raw, st.p, this, st.mode, st.comments⟩

/-! ## Clients -/

/-- What a client can do with a scanner. -/
inductive Call where
  /-- `s.Mode = m` -/
  | setMode (m : Mode)
  /-- `s.Scan()` -/
  | scan
  /-- `s.UnScan()` -/
  | unScan
  /-- `s.SetLastScanRaw(t)` -/
  | setRaw (t : Str)
  /-- `pos.AdvancedBulk(t)` on the position that the `i`-th last `Scan` returned -/
  | bulk (i : Nat) (t : Str)

/-- What a client sees of a call. -/
inductive Seen where
  | nothing
  /-- token, text, error and position, the raw text and the comments so far -/
  | scanned (o : Prog.Out) (p : Position) (raw : Str) (comments : List (Str × Position))
  | pos (p : Position)
  | failed (e : Err)
  | stopped (h : Halt)
  deriving DecidableEq

/-- A call on the abstract state; `hs` are the positions returned so far, latest first. -/
def callA (c : Call) (s : Scanner) (hs : List SPos) : Seen × Scanner × List SPos :=
  match c with
  | .setMode m => (.nothing, { s with mode := m }, hs)
  | .scan =>
    match Scanner.scan s with
    | .ok x s' => (.scanned (x.token, x.text, x.error) x.pos.p s'.raw
        (s'.comments.map fun t => (t.literal, t.pos.p)), s', x.pos :: hs)
    | .err e s' => (.failed e, s', hs)
    | .halt h => (.stopped h, s, hs)
  | .unScan => (.pos s.unScan.pos.p, s.unScan, hs)
  | .setRaw t => (.nothing, { s with raw := t }, hs)
  | .bulk i t =>
    match hs[i]? with
    | some q => (.pos (q.advancedBulk t).p, s, hs)
    | none => (.nothing, s, hs)

/-- A call on the concrete state. -/
def callC (rd : RuneReader ρ) (c : Call) (s : Concrete ρ) (hs : List Position) : Seen × Concrete ρ × List Position :=
  match c with
  | .setMode m => (.nothing, { s with mode := m }, hs)
  | .scan =>
    match Concrete.scan rd s with
    | .ok x s' => (.scanned x.1 x.2 s'.raw s'.comments, s', x.2 :: hs)
    | .err e s' => (.failed e, s', hs)
    | .halt h => (.stopped h, s, hs)
  | .unScan => (.pos s.unScan.p, s.unScan, hs)
  | .setRaw t => (.nothing, { s with raw := t }, hs)
  | .bulk i t =>
    match hs[i]? with
    | some q => (.pos (Concrete.advancedBulk q t s).1, (Concrete.advancedBulk q t s).2, hs)
    | none => (.nothing, s, hs)

/-- All that a client sees of a sequence of calls. -/
def seenA : List Call → Scanner → List SPos → List Seen
  | [], _, _ => []
  | c :: cs, s, hs => (callA c s hs).1 :: seenA cs (callA c s hs).2.1 (callA c s hs).2.2

def seenC (rd : RuneReader ρ) : List Call → Concrete ρ → List Position → List Seen
  | [], _, _ => []
  | c :: cs, s, hs => (callC rd c s hs).1 :: seenC rd cs (callC rd c s hs).2.1 (callC rd c s hs).2.2

/-- Every `AdvancedBulk` goes over text that the scanner has passed since it returned the position. -/
def Fair : List Call → Scanner → List SPos → Prop
  | [], _, _ => True
  | c :: cs, s, hs =>
    (∀ i t q, c = .bulk i t → hs[i]? = some q → ∃ more, s.pos = q.advanceAll (t ++ more)) ∧
      Fair cs (callA c s hs).2.1 (callA c s hs).2.2

theorem call_same (c : Call) {s : Scanner} {k : Concrete ρ} {hs : List SPos} (st : Stand rd s k)
    (hf : ∀ i t q, c = .bulk i t → hs[i]? = some q → ∃ more, s.pos = q.advanceAll (t ++ more)) :
    (callA c s hs).1 = (callC rd c k (hs.map SPos.p)).1 ∧
      Stand rd (callA c s hs).2.1 (callC rd c k (hs.map SPos.p)).2.1 ∧
      (callA c s hs).2.2.map SPos.p = (callC rd c k (hs.map SPos.p)).2.2 := by
  cases c with
  | setMode m => exact ⟨rfl, ⟨st.inp, st.raw, st.p, st.columns, rfl, st.comments⟩, rfl⟩
  | setRaw t => exact ⟨rfl, ⟨st.inp, rfl, st.p, st.columns, st.mode, st.comments⟩, rfl⟩
  | unScan => exact ⟨by simp only [callA, callC]; rw [(stand_unScan st).p], stand_unScan st, rfl⟩
  | scan =>
    have h := run_same Prog.scan st.p
      (s := { s with raw := [] }) (c := { k with raw := [] })
      ⟨st.inp, rfl, st.p, st.columns, st.mode, st.comments⟩
    rw [scan_is_prog] at h
    simp only [callA, callC, Concrete.scan]
    revert h
    cases Scanner.scan s with
    | ok x s' =>
      cases Concrete.run rd Prog.scan k.p { k with raw := [] } with
      | ok y k' =>
        rintro ⟨h1, h2, h3⟩
        refine ⟨?_, h3, ?_⟩
        · simp only at h1 h2 ⊢
          rw [← h1, ← h2, h3.raw, h3.comments]
        · simp only [List.map_cons] at h2 ⊢
          rw [h2]
      | err e k' => intro h; exact h.elim
      | halt h => intro h; exact h.elim
    | err e s' =>
      cases Concrete.run rd Prog.scan k.p { k with raw := [] } with
      | ok y k' => intro h; exact h.elim
      | err e' k' => rintro ⟨h1, h2⟩; exact ⟨by rw [h1], h2, rfl⟩
      | halt h => intro h; exact h.elim
    | halt h =>
      cases Concrete.run rd Prog.scan k.p { k with raw := [] } with
      | ok y k' => intro h; exact h.elim
      | err e' k' => intro h; exact h.elim
      | halt h' => intro e; exact ⟨by rw [show h = h' from e], st, rfl⟩
  | bulk i t =>
    simp only [callA, callC, List.getElem?_map]
    cases hq : hs[i]? with
    | none => exact ⟨rfl, st, rfl⟩
    | some q =>
      obtain ⟨more, hm⟩ := hf i t q rfl hq
      simp only [Option.map_some]
      exact ⟨by rw [bulk_result rfl t k], stand_bulk rfl t more hm st, trivial⟩

theorem seen_same (cs : List Call) {s : Scanner} {k : Concrete ρ} {hs : List SPos} (st : Stand rd s k)
    (hf : Fair cs s hs) : seenA cs s hs = seenC rd cs k (hs.map SPos.p) := by
  induction cs generalizing s k hs with
  | nil => rfl
  | cons c cs ih =>
    obtain ⟨h1, h2, h3⟩ := call_same c st hf.1
    simp only [seenA, seenC]
    rw [h1, ih h2 hf.2, h3]

/-- **C49.**  Whatever a client does – scanning in any modes, putting back, replacing the raw text,
advancing positions over text already passed – the push-back buffer over a reader and the shared map
of columns show what an ideal cursor in a text shows. -/
theorem buffer_unobservable (rd : RuneReader ρ) (r : ρ) (src filename : Str) (hg : Spec.Gives rd r src)
    (cs : List Call) (hf : Fair cs (Scanner.new src filename) []) :
    seenC rd cs (Concrete.new r src.length filename) [] = seenA cs (Scanner.new src filename) [] :=
  (seen_same (hs := []) cs ⟨⟨src, rfl, hg, rfl⟩, rfl, rfl, fun i => by simp [Concrete.new, Scanner.new, SPos.new], rfl,
    rfl⟩ hf).symm

/-- Clients that do not use `AdvancedBulk` are fair. -/
theorem fair_of_no_bulk (cs : List Call) (h : ∀ c ∈ cs, ∀ i t, c ≠ .bulk i t) (s : Scanner)
    (hs : List SPos) : Fair cs s hs := by
  induction cs generalizing s hs with
  | nil => trivial
  | cons c cs ih =>
    exact ⟨fun i t q e => absurd e (h c (by simp) i t), ih (fun c' m => h c' (by simp [m])) _ _⟩

/-- The parser is fair: it advances the position of a comment over the text of the comment, right
after it has scanned the comment (parser/comment.go:66-72). -/
theorem comment_bulk_fair {s s' : Scanner} {x : Scanner.Scanned} (hn : NulFree s.inp)
    (h : Scanner.scan s = .ok x s') (ht : x.token = .comment) :
    ∃ more, s'.pos = x.pos.advanceAll (x.text ++ more) := by
  rw [Scanner.scan_eq hn] at h
  injection h with h1 h2
  subst h1 h2
  obtain ⟨g, cs, raw, rest, h1, _, _, h4, h5, h6⟩ := Scanner.lex_lexeme s.mode s.inp
  rcases h6 with ⟨_, h7, _⟩ | ⟨_, h8, _⟩
  · have ht' : (lex s.mode s.inp).token = .comment := ht
    rw [ht'] at h7
    have h9 : ∃ more, raw = (lex s.mode s.inp).text ++ more := by
      generalize (lex s.mode s.inp).text = x at h7
      cases h7 with
      | word _ _ _ _ hc =>
        cases hc
        next hs => simp [Spec.spelling] at hs
      | punct _ _ hp => simp [Spec.punctuation] at hp
      | comment _ _ _ hc =>
        cases hc with
        | line b _ => exact ⟨['\n'], by simp⟩
        | last b _ _ => exact ⟨[], by simp⟩
        | block b _ => exact ⟨[], by simp⟩
    obtain ⟨more, h9⟩ := h9
    refine ⟨more, ?_⟩
    show s.pos.advanceAll ((lex s.mode s.inp).gap ++ (lex s.mode s.inp).body) = _
    rw [h5, h9, SPos.advanceAll_append]
    rfl
  · exact absurd (ht.symm.trans h8) (by decide)

/-! ## Examples -/

/-- A word, a comment and its end, a word, then everything is put back over the line break. -/
def calls : List Call :=
  [.scan, .setMode .commentMode, .scan, .bulk 0 c!"// b", .setMode {}, .scan, .unScan, .unScan, .scan,
    .setRaw c!"\n", .unScan, .scan]

theorem Fair.other {c : Call} {cs : List Call} {s : Scanner} {hs : List SPos} (h : ∀ i t, c ≠ .bulk i t)
    (hf : Fair cs (callA c s hs).2.1 (callA c s hs).2.2) : Fair (c :: cs) s hs :=
  ⟨fun i t _ e => absurd e (h i t), hf⟩

theorem Fair.passed {i : Nat} {t : Str} {cs : List Call} {s : Scanner} {hs : List SPos} (q : SPos)
    (more : Str) (h : hs[i]? = some q) (hp : s.pos = q.advanceAll (t ++ more)) (hf : Fair cs s hs) :
    Fair (.bulk i t :: cs) s hs := by
  refine ⟨fun i' t' q' e hq => ?_, ?_⟩
  · injection e with e1 e2
    subst e1 e2
    rw [h] at hq
    injection hq with hq
    subst hq
    exact ⟨more, hp⟩
  · simp only [callA, h]; exact hf

/-- The calls are fair, so that `buffer_unobservable` applies to them … -/
theorem calls_fair : Fair calls (Scanner.new c!"a // b\n\n c" c!"f") [] := by
  refine Fair.other (by simp) (Fair.other (by simp) (Fair.other (by simp) (Fair.passed
    ⟨⟨c!"f", 2, 1, 3⟩, []⟩ ['\n'] (by decide +kernel) (by decide +kernel) ?_)))
  exact fair_of_no_bulk _ (by simp) _ _

/-- … and what is seen is not trivial. -/
example : (seenC textReader calls (Concrete.new c!"a // b\n\n c" 9 c!"f") []).getD 3 .nothing =
    .pos ⟨c!"f", 5, 1, 6⟩ := by decide +kernel

/-- `Fair` is needed: the map of columns is shared, so that advancing a copy of an old position over a text
that is not there changes what the scanner reports when it puts a line break back. -/
theorem shared_columns_violation :
    (seenA [.scan, .scan, .bulk 1 c!"\n", .unScan] (Scanner.new c!"abc\n d" c!"f") []).getLast? =
      some (.pos ⟨c!"f", 3, 1, 4⟩) ∧
    (seenC textReader [.scan, .scan, .bulk 1 c!"\n", .unScan] (Concrete.new c!"abc\n d" 6 c!"f") []).getLast? =
      some (.pos ⟨c!"f", 3, 1, 1⟩) := by
  decide +kernel

end Verif.Props
