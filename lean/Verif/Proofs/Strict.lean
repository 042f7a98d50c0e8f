import Verif.Proofs.Relate
import Verif.Proofs.TrackParse
import Verif.Proofs.Terminate
import Verif.Proofs.Ahead

/-!
# A strict run beside a permissive one

`ASim I Q W m m'`: from related states (`I`), if the strict run `m` returns a value, then so does the permissive run
`m'`, with related values and states (`Q`) – or the strict run is in a state (`W`) from which it will fail; and if
`m` returns an error, then so does `m'`, in a state that is the same, or the strict run is `Doomed`: whatever is
put back, it does not find a semicolon.
-/

set_option backward.isDefEq.respectTransparency false
set_option backward.dsimp.instances true

namespace Verif
open Spec Scanner Lexer Parser

/-- Equal positions; the recorded comments are not compared. -/
def Link.loose : Link := { Link.same with keep := False }

theorem Link.loose_at {p q : Position} (h : Link.loose.at p q) : p = q := by
  obtain ⟨P, Q, h, rfl, rfl⟩ := h
  rw [show P = Q from h]

/-- The same state up to the recorded comments. -/
structure Full (l l' : Lexer) : Prop where
  rel : RLexer Link.loose l l'
  good : Good l

/-- The same place in the same text. -/
structure Near (l l' : Lexer) : Prop where
  good : Good l
  good' : Good l'
  inp : l.scanner.inp = l'.scanner.inp
  pos : l.scanner.pos = l'.scanner.pos

/-- Moreover, the positions last reported are on the same line. -/
structure NearLine (l l' : Lexer) : Prop where
  near : Near l l'
  line : l.pos.p.line = l'.pos.p.line

theorem Full.good' {l l' : Lexer} (h : Full l l') : Good l' :=
  ⟨h.rel.scanner.inp ▸ h.good.inp, h.rel.scanner.raw ▸ h.good.raw, h.rel.scanner.mode ▸ h.good.mode⟩

theorem Full.near {l l' : Lexer} (h : Full l l') : Near l l' :=
  ⟨h.good, h.good', h.rel.scanner.inp, h.rel.scanner.pos⟩

theorem Full.nearLine {l l' : Lexer} (h : Full l l') : NearLine l l' :=
  ⟨h.near, by rw [show l.pos = l'.pos from h.rel.pos]⟩

/-- Whatever follows, the next token is the same and is not a semicolon. -/
def Stuck (r : Str) : Prop := ∀ x, (lex {} (r ++ x)).token ≠ .semicolon ∧ (lex {} (r ++ x)).raw = r

structure Doomed (l : Lexer) : Prop where
  good : Good l
  stuck : Stuck l.scanner.raw

def ARes {α β : Type} (Q : α → β → Lexer → Lexer → Prop) (W : Lexer → Prop) (r : Res Lexer Err α)
    (r' : Res Lexer Err β) : Prop :=
  match r with
  | .ok a l => (∃ b l', r' = .ok b l' ∧ Q a b l l') ∨ W l
  | .err _ l => (∃ e' l', r' = .err e' l' ∧ Full l l') ∨ Doomed l
  | .halt _ => True

structure ASim {α β : Type} (I : Lexer → Lexer → Prop) (Q : α → β → Lexer → Lexer → Prop) (W : Lexer → Prop)
    (m : P α) (m' : P β) : Prop where
  run : ∀ l l', I l l' → ARes Q W (m l) (m' l')

/-- Related values in related states. -/
def Both {α β : Type} (R : α → β → Prop) (O : Lexer → Lexer → Prop) : α → β → Lexer → Lexer → Prop :=
  fun a b l l' => R a b ∧ O l l'

/-- No state. -/
def Never (_ : Lexer) : Prop := False

section
variable {α β γ δ : Type} {I O : Lexer → Lexer → Prop} {Q : α → β → Lexer → Lexer → Prop}
  {S : γ → δ → Lexer → Lexer → Prop} {W V : Lexer → Prop} {R : α → β → Prop}

theorem run_never {m : P α} : Run Never V Doomed m := ⟨fun _ h => h.elim⟩

theorem ARes.lone {r : Res Lexer Err α} (h : Sat (fun _ => True) (fun _ l' => W l') (fun _ l' => Doomed l') r)
    (r' : Res Lexer Err β) : ARes Q W r r' := by
  cases r with
  | ok a l => exact .inr h
  | err e l => exact .inr h
  | halt h => trivial

theorem ASim.bindQ {m : P α} {m' : P β} {f : α → P γ} {f' : β → P δ} (h : ASim I Q W m m')
    (hf : ∀ a b, ASim (Q a b) S V (f a) (f' b)) (hw : ∀ a, Run W V Doomed (f a)) :
    ASim I S V (m >>= f) (m' >>= f') := by
  refine ⟨fun l l' hl => ?_⟩
  have := h.run l l' hl
  show ARes S V (M.bind m f l) (M.bind m' f' l')
  unfold M.bind
  revert this
  cases m l with
  | ok a l1 =>
    rintro (⟨b, l1', h1, h2⟩ | h1)
    · rw [h1]; exact (hf a b).run l1 l1' h2
    · exact ARes.lone ((hw a).sat l1 h1) _
  | err e l1 =>
    rintro (⟨e', l1', h1, h2⟩ | h1)
    · rw [h1]; exact .inl ⟨e', l1', rfl, h2⟩
    · exact .inr h1
  | halt h => exact id

theorem ASim.bind {m : P α} {m' : P β} {f : α → P γ} {f' : β → P δ} (h : ASim I (Both R O) Never m m')
    (hf : ∀ a b, R a b → ASim O S V (f a) (f' b)) : ASim I S V (m >>= f) (m' >>= f') :=
  h.bindQ (fun a b => ⟨fun l l' h => (hf a b h.1).run l l' h.2⟩) (fun _ => run_never)

theorem ASim.attempt {m : P α} {m' : P β} {f : Except Err α → P γ} {f' : Except Err β → P δ} (h : ASim I Q W m m')
    (hf : ∀ a b, ASim (Q a b) S V (f (.ok a)) (f' (.ok b))) (hw : ∀ a, Run W V Doomed (f (.ok a)))
    (he : ∀ e e', ASim Full S V (f (.error e)) (f' (.error e')))
    (hd : ∀ e, Run Doomed V Doomed (f (.error e))) :
    ASim I S V (M.attempt m >>= f) (M.attempt m' >>= f') := by
  refine ⟨fun l l' hl => ?_⟩
  have := h.run l l' hl
  show ARes S V (M.bind (M.attempt m) f l) (M.bind (M.attempt m') f' l')
  unfold M.bind M.attempt
  revert this
  cases m l with
  | ok a l1 =>
    rintro (⟨b, l1', h1, h2⟩ | h1)
    · rw [h1]; exact (hf a b).run l1 l1' h2
    · exact ARes.lone ((hw a).sat l1 h1) _
  | err e l1 =>
    rintro (⟨e', l1', h1, h2⟩ | h1)
    · rw [h1]; exact (he e e').run l1 l1' h2
    · exact ARes.lone ((hd e).sat l1 h1) _
  | halt h => exact id

theorem ASim.pre {I' : Lexer → Lexer → Prop} {m : P α} {m' : P β} (hi : ∀ l l', I' l l' → I l l')
    (h : ASim I Q W m m') : ASim I' Q W m m' := ⟨fun l l' hl => h.run l l' (hi l l' hl)⟩

theorem ARes.mono {Q' : α → β → Lexer → Lexer → Prop} {V : Lexer → Prop} {r : Res Lexer Err α} {r' : Res Lexer Err β}
    (h : ARes Q W r r') (hq : ∀ a b l l', Q a b l l' → Q' a b l l') (hv : ∀ l, W l → V l) : ARes Q' V r r' := by
  revert h
  cases r with
  | ok a l1 =>
    rintro (⟨b, l1', h1, h2⟩ | h1)
    · exact .inl ⟨b, l1', h1, hq _ _ _ _ h2⟩
    · exact .inr (hv _ h1)
  | err e l1 => exact id
  | halt h => exact id

theorem ASim.post {Q' : α → β → Lexer → Lexer → Prop} {m : P α} {m' : P β}
    (hq : ∀ a b l l', Q a b l l' → Q' a b l l') (h : ASim I Q W m m') : ASim I Q' W m m' :=
  ⟨fun l l' hl => (h.run l l' hl).mono hq (fun _ h => h)⟩

theorem ASim.calm {m : P α} {m' : P β} (h : ASim I Q Never m m') : ASim I Q V m m' :=
  ⟨fun l l' hl => (h.run l l' hl).mono (fun _ _ _ _ h => h) (fun _ h => h.elim)⟩

theorem ASim.val {R' : α → β → Prop} {m : P α} {m' : P β} (h : ASim I (Both R O) W m m')
    (hr : ∀ a b, R a b → R' a b) : ASim I (Both R' O) W m m' :=
  h.post fun _ _ _ _ h => ⟨hr _ _ h.1, h.2⟩

theorem ASim.pure {a : α} {b : β} (h : ∀ l l', I l l' → Q a b l l') :
    ASim I Q W (Pure.pure a : P α) (Pure.pure b : P β) := ⟨fun l l' hl => .inl ⟨b, l', rfl, h l l' hl⟩⟩

theorem ASim.ret {a : α} {b : β} (h : R a b) :
    ASim I (Both R I) W (Pure.pure a : P α) (Pure.pure b : P β) := ASim.pure fun _ _ hl => ⟨h, hl⟩

theorem ASim.stop {h : Halt} {m : P β} : ASim I Q W (M.stop h : P α) m := ⟨fun _ _ _ => trivial⟩

theorem ASim.throw {e e' : Err} : ASim Full Q W (M.throw e : P α) (M.throw e' : P β) :=
  ⟨fun _ l' hl => .inl ⟨e', l', rfl, hl⟩⟩

theorem ASim.perr {s s' : String} : ASim Full Q W (Parser.unexpected s : P α) (Parser.unexpected s' : P β) :=
  ⟨fun _ l' hl => .inl ⟨_, l', rfl, hl⟩⟩

theorem ASim.lerr {s s' : String} : ASim Full Q W (Lexer.unexpected s : P α) (Lexer.unexpected s' : P β) :=
  ⟨fun _ l' hl => .inl ⟨_, l', rfl, hl⟩⟩

theorem ASim.ite {c : Prop} [Decidable c] {m n : P α} {m' n' : P β} (h : ASim I Q W m m') (h' : ASim I Q W n n') :
    ASim I Q W (if c then m else n) (if c then m' else n') := by
  by_cases hc : c
  · rw [if_pos hc, if_pos hc]; exact h
  · rw [if_neg hc, if_neg hc]; exact h'

theorem ASim.false {I : Lexer → Lexer → Prop} (h : ∀ l l', ¬ I l l') {m : P α} {m' : P β} : ASim I Q W m m' :=
  ⟨fun l l' hl => absurd hl (h l l')⟩

/-- A function that is the same in both runs. -/
theorem ASim.of_sim {f : P α} {R : α → α → Prop} (h : SimP Link.loose R f f) (hg : Run Good Good Good f) :
    ASim Full (Both R Full) W f f := by
  refine ⟨fun l l' hl => ?_⟩
  have h1 := h l l' hl.rel
  have h2 := hg.sat l hl.good
  revert h1 h2
  cases f l with
  | ok a l1 =>
    cases f l' with
    | ok b l1' => intro h1 h2; exact .inl ⟨b, l1', rfl, h1.1, h1.2, h2⟩
    | err e l1' => intro h; exact h.elim
    | halt h => intro h; exact h.elim
  | err e l1 =>
    cases f l' with
    | ok b l1' => intro h; exact h.elim
    | err e l1' => intro h1 h2; exact .inl ⟨e, l1', rfl, h1.2, h2⟩
    | halt h => intro h; exact h.elim
  | halt h => intro _ _; trivial

end

/-! ## Functions that start with reading a token -/

/-- Nothing but the place in the text matters. -/
def Fresh {α : Type} (f : P α) : Prop :=
  ∀ l l', Good l → Good l' → l.scanner = { l'.scanner with raw := l.scanner.raw } → l.log = l'.log → f l = f l'

theorem fresh_nextWith (m : Mode) : Fresh (nextWith m) := by
  intro l l' hg hg' h he
  rw [run_nextWith hg, run_nextWith hg']
  have h1 : l.scanner.inp = l'.scanner.inp := by rw [h]
  have h2 : l.scanner.pos = l'.scanner.pos := by rw [h]
  have h3 : l.scanner.comments = l'.scanner.comments := by rw [h]
  have h4 : l.scanner.mode = l'.scanner.mode := by rw [h]
  congr 1
  simp only [nextSt, LexOut.after, h1, h2, h3, h4, he]

theorem fresh_next : Fresh next := by
  intro l l' hg hg' h he
  rw [run_next hg, run_next hg']
  have := fresh_nextWith {} l l' hg hg' h he
  rw [run_nextWith hg, run_nextWith hg'] at this
  exact this

section
variable {α β : Type}

theorem fresh_bind {m : P α} {f : α → P β} (h : Fresh m) : Fresh (m >>= f) := by
  intro l l' hg hg' hs he
  show M.bind m f l = M.bind m f l'
  unfold M.bind
  rw [h l l' hg hg' hs he]

theorem fresh_attempt {m : P α} (h : Fresh m) : Fresh (M.attempt m) := by
  intro l l' hg hg' hs he
  unfold M.attempt
  rw [h l l' hg hg' hs he]

theorem fresh_bound {f : Nat → P α} (h : ∀ n, Fresh (f n)) : Fresh (bound >>= f) := by
  intro l l' hg hg' hs he
  show f (l.scanner.inp.length + 1) l = f (l'.scanner.inp.length + 1) l'
  rw [show l.scanner.inp = l'.scanner.inp by rw [hs]]
  exact h _ l l' hg hg' hs he

theorem fresh_stop (h : Halt) : Fresh (M.stop h : P α) := fun _ _ _ _ _ _ => rfl

theorem fresh_expect {nx : P Unit} {t : Token} {s : String} (h : Fresh nx) : Fresh (Parser.expect nx t s) :=
  fresh_bind h

theorem fresh_orUnexpected {m : P α} {s : String} (h : Fresh m) : Fresh (Parser.orUnexpected m s) :=
  fresh_bind (fresh_attempt h)

theorem ASim.near {W : Lexer → Prop} {f : P α} {R : α → α → Prop} (h : SimP Link.loose R f f)
    (hg : Run Good Good Good f) (hf : Fresh f) : ASim Near (Both R Full) W f f := by
  refine ⟨fun l l' hl => ?_⟩
  obtain ⟨l2, e, hr⟩ : ∃ l2, f l' = f l2 ∧ Full l l2 := by
    refine ⟨{ l' with token := l.token, text := l.text, rawText := l.rawText, pos := l.pos,
                      scanner := { l'.scanner with raw := l.scanner.raw } }, ?_, ?_⟩
    · exact hf l' _ hl.good' ⟨hl.good'.inp, hl.good.raw, hl.good'.mode⟩ rfl rfl
    · exact ⟨⟨rfl, rfl, rfl, rfl, ⟨hl.inp, rfl, hl.pos, hl.good.mode.trans hl.good'.mode.symm, fun h => h.elim⟩⟩,
        hl.good⟩
  rw [e]
  exact (ASim.of_sim h hg).run l l2 hr

end

theorem asim_nextWith {W : Lexer → Prop} (m : Mode) : ASim Near (Both Eq Full) W (nextWith m) (nextWith m) :=
  ASim.near (sim_nextWith m) ⟨fun l hl => by rw [run_nextWith hl]; exact good_next hl m⟩ (fresh_nextWith m)

theorem asim_next {W : Lexer → Prop} : ASim Near (Both Eq Full) W next next :=
  ASim.near sim_next ⟨fun l hl => by rw [run_next hl]; exact good_next hl {}⟩ fresh_next

/-- The `Run` of a function that was tracked. -/
theorem run_good {α : Type} {f : P α} {E : Str → Lexer → Prop} (hE : ∀ t l, E t l → Good l) {K : Str → Lexer → Prop}
    (hK : ∀ t l, K t l → Good l) (h : ∀ t, Run (AtEnd t) (K t) (E t) f) : Run Good Good Good f :=
  ⟨fun l hl => ((h l.scanner.inp).sat l ⟨hl, List.suffix_refl _⟩).mono (fun _ _ h => hK _ _ h) (fun _ _ h => hE _ _ h)⟩

theorem run_goodK {α : Type} {f : P α} (h : ∀ t, Run (AtEnd t) (Known t) (Known t) f) : Run Good Good Good f :=
  run_good (E := Known) (K := Known) (fun _ _ h => h.good) (fun _ _ h => h.good) h
theorem run_goodR {α : Type} {f : P α} (h : ∀ t, Run (AtEnd t) (JustRead t) (Known t) f) : Run Good Good Good f :=
  run_good (E := Known) (K := JustRead) (fun _ _ h => h.good) (fun _ _ h => h.good) h
theorem run_goodW {α : Type} {f : P α} (h : ∀ t, Run (AtEnd t) (AtEnd t) (Known t) f) : Run Good Good Good f :=
  run_good (E := Known) (K := AtEnd) (fun _ _ h => h.good) (fun _ _ h => h.good) h

/-! ## Texts on which a strict run is stuck -/

theorem stuck_one {c : Char} (h1 : isSpace c = false ∧ c ≠ '/' ∧ isLetter c = false ∧ c ≠ '_')
    (h2 : asMiscToken c ≠ .semicolon) {u : Str} (h : (lex {} u).body = [c]) : Stuck (lex {} u).raw := by
  obtain ⟨g, cs, x, e1, e2, e3, e4⟩ := lex_solid (m := {}) rfl u
  have hr : (lex {} u).raw = g ++ [c] := by rw [LexOut.raw, e3, h]
  have hd := drop_raw {} u
  rw [hr] at hd ⊢
  have hx : x = c :: u.drop (g ++ [c]).length := by
    have := e1.symm.trans hd
    simp only [List.append_assoc] at this
    simpa using List.append_cancel_left this
  rw [hx] at e2
  intro y
  have := lex_gap (m := {}) (rest := c :: y) (g := g) (cs := cs) (gap_change e2)
  rw [show g ++ [c] ++ y = g ++ (c :: y) by simp, this]
  have hs := lex_single (m := {}) y h1 (fun _ => rfl) (fun _ => rfl)
  simp only [LexOut.raw, hs]
  exact ⟨h2, by simp⟩

/-- The tokens on which a strict run fails where a permissive one need not. -/
def Bars (t : Token) : Prop := t = .leftCurly ∨ t = .leftSquare ∨ t = .dot ∨ t = .quote

theorem lex_reads {u : Str} {t : Token} (h : (lex {} u).token = t) (h1 : t ≠ .eof) (h2 : t ≠ .illegal) :
    Reads {} t (lex {} u).body := by
  obtain ⟨h3, h4⟩ := next_reads (m := {}) rfl (l := Lexer.new u []) (t := t) h h1 h2
  rw [← h3] at h4
  exact h4

theorem stuck_lex {u : Str} (h : Bars (lex {} u).token) : Stuck (lex {} u).raw := by
  rcases h with h | h | h | h
  · have := lex_reads h (by simp) (by simp)
    simp [Reads, spelling, punctuation] at this
    exact stuck_one (by decide) (by decide) this
  · have := lex_reads h (by simp) (by simp)
    simp [Reads, spelling, punctuation] at this
    exact stuck_one (by decide) (by decide) this
  · have := lex_reads h (by simp) (by simp)
    simp [Reads, spelling, punctuation] at this
    exact stuck_one (by decide) (by decide) this
  · have := lex_reads h (by simp) (by simp)
    simp [Reads] at this
    rcases this with this | this <;> exact stuck_one (by decide) (by decide) this

theorem doomed_next {l : Lexer} (hg : Good l) (h : Bars (nextSt {} l).token) : Doomed (nextSt {} l) :=
  ⟨good_next hg _, by simp only [nextSt, after_raw]; exact stuck_lex h⟩

theorem doomed_putBack {l : Lexer} (hg : Good l) (h : Bars (nextSt {} l).token) : Doomed (putBack {} l) :=
  ⟨good_putBack hg _, stuck_lex h⟩

section
variable {α : Type} {V : Lexer → Prop}

theorem doom_perr (s : String) : Run Doomed V Doomed (Parser.unexpected s : P α) := ⟨fun _ h => h⟩
theorem doom_lerr (s : String) : Run Doomed V Doomed (Lexer.unexpected s : P α) := ⟨fun _ h => h⟩
theorem doom_throw (e : Err) : Run Doomed V Doomed (M.throw e : P α) := ⟨fun _ h => h⟩

theorem doom_recover (e : Err) : Run Doomed V Doomed (recoverEmpty e) := by
  refine ⟨fun l hl => ?_⟩
  obtain ⟨l1, h1, hg1, hi1⟩ := unNext_good hl.good
  unfold recoverEmpty
  rw [bind_run h1]
  obtain ⟨h2, h3⟩ := hl.stuck l.scanner.inp
  have h4 : (nextSt {} l1).token ≠ .semicolon := by
    show (lex {} l1.scanner.inp).token ≠ _
    rw [hi1]; exact h2
  refine Sat.bind (Q := fun r l' => ∃ e, r = .error e ∧ Doomed l') ?_ ?_
  · unfold M.attempt
    rw [readEmptyStatement_eq hg1, if_neg h4]
    refine ⟨_, rfl, good_putBack hg1 _, ?_⟩
    show Stuck (lex {} l1.scanner.inp).raw
    rw [hi1, h3]
    exact hl.stuck
  · rintro _ l' ⟨e, rfl, h⟩
    exact h

end

end Verif
