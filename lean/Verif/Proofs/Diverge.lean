import Verif.Proofs.Relate
import Verif.Proofs.Sat

set_option backward.isDefEq.respectTransparency false
set_option backward.dsimp.instances true

/-!
# Runs that depend on the remaining text only

Inside a message nothing but the remaining text decides what the parser does: two runs that start with the
same text go the same way, whatever their positions and recorded comments are.
-/

namespace Verif

open Spec Lexer Scanner

/-- Positions with a fixed difference of offsets and of lines. -/
def Link.moved (j k : Int) : Link where
  pos P Q := Q.p.offset = P.p.offset + j ∧ Q.p.line = P.p.line + k
  shift := j
  lines := k
  keep := False
  advance {P Q} c h := by
    unfold SPos.advance
    by_cases hc : c = '\n'
    · simp only [if_pos hc]; exact ⟨by rw [h.1]; omega, by rw [h.2]; omega⟩
    · simp only [if_neg hc]; exact ⟨by rw [h.1]; omega, h.2⟩
  revert {P Q} c h := by
    unfold SPos.revert
    by_cases hc : c = '\n'
    · simp only [if_pos hc]; exact ⟨by rw [h.1]; omega, by rw [h.2]; omega⟩
    · simp only [if_neg hc]; exact ⟨by rw [h.1]; omega, h.2⟩
  line h := h.2
  offset h := h.1

/-- Any two positions are linked in this way. -/
theorem moved_of (P Q : SPos) :
    (Link.moved (Q.p.offset - P.p.offset) (Q.p.line - P.p.line)).pos P Q := ⟨by omega, by omega⟩

theorem moved_next {l l' : Lexer} (m : Mode) (hi : l.scanner.inp = l'.scanner.inp)
    (hm : l.scanner.mode = l'.scanner.mode) :
    RLexer (Link.moved (l'.scanner.pos.p.offset - l.scanner.pos.p.offset)
      (l'.scanner.pos.p.line - l.scanner.pos.p.line)) (nextSt m l) (nextSt m l') := by
  have hp := moved_of l.scanner.pos l'.scanner.pos
  refine ⟨?_, ?_, ?_, ?_, ?_, ?_, ?_, ?_, fun h => h.elim⟩
  · simp only [nextSt, hi]
  · simp only [nextSt, hi]
  · simp only [nextSt, hi]
  · simp only [nextSt, hi]; exact Parser.rel_advanceAll _ hp
  · simp only [nextSt, after_inp, hi]
  · simp only [nextSt, hi]; rfl
  · simp only [nextSt, after_pos, hi]; exact Parser.rel_advanceAll _ hp
  · exact hm

namespace Parser

/-- One round of the loop over the body of a message: a statement, unless the body ends. -/
def turn (cfg : Cfg) (body : P Body) : P (Option Visitee) := do
  let comments ← parseComments
  let token ← peekKeyword
  if token = .rightCurly then return none
  else
    let stmt ← messageStmt cfg body comments token
    let stmt ← maybeScanInlineComment stmt
    return some stmt


theorem SimRes.bind {σ ε α β γ δ : Type} {L : σ → σ → Prop} {E : ε → ε → Prop} {R : α → β → Prop}
    {Q : γ → δ → Prop} {m : M σ ε α} {m' : M σ ε β} {f : α → M σ ε γ} {f' : β → M σ ε δ} {s t : σ}
    (h : SimRes L E R (m s) (m' t)) (hf : ∀ a b, R a b → Sim L E Q (f a) (f' b)) :
    SimRes L E Q ((m >>= f) s) ((m' >>= f') t) := by
  show SimRes L E Q (M.bind m f s) (M.bind m' f' t)
  unfold M.bind
  revert h
  cases m s with
  | ok a s' =>
    cases m' t with
    | ok b t' => intro h; exact hf a b h.1 s' t' h.2
    | err e t' => intro h; exact h.elim
    | halt h => intro h; exact h.elim
  | err e s' =>
    cases m' t with
    | ok b t' => intro h; exact h.elim
    | err e t' => intro h; exact h
    | halt h => intro h; exact h.elim
  | halt h =>
    cases h with
    | fuel => intro _; trivial
    | panic =>
      cases m' t with
      | ok b t' => intro h; exact h.elim
      | err e t' => intro h; exact h.elim
      | halt h =>
        cases h with
        | fuel => intro h; exact h.elim
        | panic => intro _; trivial

/-- `parseComment` after its first step. -/
def commentRest : P Comment := do
  let t ← tok
  if t = .comment then
    let x ← txt
    let pos ← position
    return mkComment x pos
  else
    let r ← M.attempt (unexpected "comment" : P Comment)
    unNext
    match r with
    | .ok c => return c
    | .error e => M.throw e

theorem parseComment_rest {l : Lexer} (hf : NulFree l.scanner.inp) :
    parseComment l = commentRest (nextSt .commentMode l) := by
  show M.bind (nextWith .commentMode) (fun _ => commentRest) l = _
  unfold M.bind
  rw [nextWith_eq _ hf]

theorem sim_commentRest {ρ : Link} : SimP ρ (RC ρ) commentRest commentRest := by
  unfold commentRest
  refine sim_tok.bind fun t _ e => ?_
  subst e
  refine Sim.ite (sim_txt.bind fun x _ e => ?_) ?_
  · subst e
    exact sim_position.bind fun p q h => Sim.pure (rel_mkComment x h)
  · refine (Sim.attempt (sim_perr (R := RC ρ) _)).bind fun a b h => ?_
    refine sim_unNext.bind fun _ _ _ => ?_
    cases h with
    | ok h => exact Sim.pure h
    | error h => exact Sim.throw h

/-- A round does the same with any positions, and with a larger bound unless it exhausts the smaller. -/
theorem turn_rel {p b b' : Bool} {n n' d d' : Nat} (hn : n ≤ n') (hd : d ≤ d') {l l' : Lexer}
    (hf : NulFree l.scanner.inp) (hi : l.scanner.inp = l'.scanner.inp)
    (hm : l.scanner.mode = l'.scanner.mode) :
    ∃ ρ, SimRes (RLexer ρ) (AlikeErr ρ.at) (AlikeOpt (AlikeV ρ.at .either))
      (turn ⟨p, b, n⟩ (messageBody ⟨p, b, n⟩ d) l) (turn ⟨p, b', n'⟩ (messageBody ⟨p, b', n'⟩ d') l') := by
  have hr := moved_next .commentMode hi hm
  generalize Link.moved (l'.scanner.pos.p.offset - l.scanner.pos.p.offset)
      (l'.scanner.pos.p.line - l.scanner.pos.p.line) = ρ at hr
  refine ⟨ρ, ?_⟩
  have hc : SimRes (RLexer ρ) (AlikeErr ρ.at) (RC ρ) (parseComment l) (parseComment l') := by
    rw [parseComment_rest hf, parseComment_rest (hi ▸ hf)]
    exact sim_commentRest _ _ hr
  have ha : SimRes (RLexer ρ) (AlikeErr ρ.at) (RExcept (AlikeErr ρ.at) (RC ρ)) (M.attempt parseComment l)
      (M.attempt parseComment l') := by
    have := Sim.attempt (sim_commentRest (ρ := ρ)) _ _ hr
    unfold M.attempt at this ⊢
    rwa [parseComment_rest hf, parseComment_rest (hi ▸ hf)]
  unfold turn
  refine SimRes.bind (R := RCs ρ) ?_ fun cs cs' hcs => ?_
  · unfold parseComments
    show SimRes _ _ _ (parseCommentsLoop (l.scanner.inp.length + 1) [] l)
      (parseCommentsLoop (l'.scanner.inp.length + 1) [] l')
    rw [← hi]
    unfold parseCommentsLoop
    refine SimRes.bind ha fun x y hxy => ?_
    cases hxy with
    | error _ => exact Sim.pure .nil
    | ok hx => exact sim_commentsLoop _ (.cons hx .nil)
  · refine sim_peekKeyword.bind fun t _ e => ?_
    subst e
    refine Sim.ite (Sim.pure .none) ?_
    refine (sim_messageStmt (.inr rfl) (sim_messageBody (.inr rfl) hn hd) hcs t).bind fun x y hxy => ?_
    exact (sim_maybeScan hxy).bind fun x y hxy => Sim.pure (.some hxy)

/-- A result with an element and the remaining text `t`. -/
def GoesTo (t : Str) (r : Res Lexer Err (Option Visitee)) : Prop :=
  match r with
  | .ok x l => x.isSome ∧ l.scanner.inp = t ∧ l.scanner.mode = {}
  | _ => False

instance (t : Str) (r : Res Lexer Err (Option Visitee)) : Decidable (GoesTo t r) := by
  unfold GoesTo; split <;> infer_instance

theorem GoesTo.rel {t : Str} {ρ : Link} {r r' : Res Lexer Err (Option Visitee)} {E : Err → Err → Prop}
    {R : Visitee → Visitee → Prop} (h : SimRes (RLexer ρ) E (AlikeOpt R) r r') (hg : GoesTo t r) :
    GoesTo t r' := by
  cases r with
  | ok x l =>
    cases r' with
    | ok y l' =>
      obtain ⟨h1, h2, h3⟩ := hg
      refine ⟨?_, h.2.scanner.inp ▸ h2, h.2.scanner.mode ▸ h3⟩
      cases h.1 with
      | none => cases h1
      | some _ => rfl
    | err e l' => exact h.elim
    | halt e => exact h.elim
  | err e l => exact hg.elim
  | halt e => exact hg.elim

theorem GoesTo.rel' {t : Str} {ρ : Link} {r r' : Res Lexer Err (Option Visitee)} {E : Err → Err → Prop}
    {R : Visitee → Visitee → Prop} (h : SimRes (RLexer ρ) E (AlikeOpt R) r r') (hg : GoesTo t r') :
    r = .halt .fuel ∨ GoesTo t r := by
  cases r with
  | ok x l =>
    cases r' with
    | ok y l' =>
      obtain ⟨h1, h2, h3⟩ := hg
      refine .inr ⟨?_, h.2.scanner.inp ▸ h2, h.2.scanner.mode ▸ h3⟩
      cases h.1 with
      | none => cases h1
      | some _ => rfl
    | err e l' => exact h.elim
    | halt e => exact h.elim
  | err e l =>
    cases r' with
    | ok y l' => exact h.elim
    | err e l' => exact hg.elim
    | halt e => exact h.elim
  | halt e =>
    cases e with
    | fuel => exact .inl rfl
    | panic =>
      cases r' with
      | ok y l' => exact h.elim
      | err e l' => exact h.elim
      | halt e => exact hg.elim

/-- One run from one text to another shows that every run from the first text goes to the second one, unless
it exhausts its bound. -/
theorem turn_text {t t' : Str} {p b b' : Bool} {n d n' d' : Nat} {f : Str} (hf : NulFree t)
    (h : GoesTo t' (turn ⟨p, b', n'⟩ (messageBody ⟨p, b', n'⟩ d') (Lexer.new t f)))
    {l : Lexer} (hi : l.scanner.inp = t) (hm : l.scanner.mode = {}) :
    turn ⟨p, b, n⟩ (messageBody ⟨p, b, n⟩ d) l = .halt .fuel ∨
      GoesTo t' (turn ⟨p, b, n⟩ (messageBody ⟨p, b, n⟩ d) l) := by
  obtain ⟨ρ, h1⟩ := turn_rel (p := p) (b := b') (b' := b') (Nat.le_max_left n' n) (Nat.le_max_left d' d)
    (l := Lexer.new t f) (l' := Lexer.new t f) hf rfl rfl
  obtain ⟨ρ', h2⟩ := turn_rel (p := p) (b := b) (b' := b') (Nat.le_max_right n' n) (Nat.le_max_right d' d)
    (l := l) (l' := Lexer.new t f) (hi ▸ hf) hi hm
  exact GoesTo.rel' h2 (GoesTo.rel h1 h)

/-- A run of a loop after one round. -/
def Follows (K : Visitee → Lexer → Res Lexer Err Body) (r : Res Lexer Err (Option Visitee))
    (r' : Res Lexer Err Body) : Prop :=
  (r = .halt .fuel → r' = .halt .fuel) ∧ ∀ v l, r = .ok (some v) l → r' = K v l

theorem res_ok_halt {α : Type} {a : α} {l : Lexer} {h : Halt} {C : Prop}
    (e : (Res.ok a l : Res Lexer Err α) = .halt h) : C := by cases e
theorem res_err_halt {α : Type} {x : Err} {l : Lexer} {h : Halt} {C : Prop}
    (e : (Res.err x l : Res Lexer Err α) = .halt h) : C := by cases e
theorem res_err_ok {α : Type} {x : Err} {a : α} {l l' : Lexer} {C : Prop}
    (e : (Res.err x l : Res Lexer Err α) = .ok a l') : C := by cases e
theorem res_halt_ok {α : Type} {h : Halt} {a : α} {l : Lexer} {C : Prop}
    (e : (Res.halt h : Res Lexer Err α) = .ok a l) : C := by cases e

theorem follows_bind {α : Type} {K : Visitee → Lexer → Res Lexer Err Body} {m : P α}
    {f : α → P (Option Visitee)} {g : α → P Body} (h : ∀ a l, Follows K (f a l) (g a l)) (l : Lexer) :
    Follows K ((m >>= f) l) ((m >>= g) l) := by
  show Follows K (M.bind m f l) (M.bind m g l)
  unfold M.bind
  cases m l with
  | ok a l => exact h a l
  | err e l => exact ⟨fun h => res_err_halt h, fun _ _ h => res_err_ok h⟩
  | halt h => exact ⟨fun h => by cases h; rfl, fun _ _ h => res_halt_ok h⟩

theorem follows_none {K : Visitee → Lexer → Res Lexer Err Body} (l : Lexer) (r : Res Lexer Err Body) :
    Follows K ((Pure.pure none : P (Option Visitee)) l) r :=
  ⟨fun h => res_ok_halt h, fun _ _ h => (nomatch (Res.ok.inj h).1)⟩

theorem follows_pure {K : Visitee → Lexer → Res Lexer Err Body} (s : Visitee) (l : Lexer) :
    Follows K ((Pure.pure (some s) : P (Option Visitee)) l) (K s l) := by
  refine ⟨fun h => res_ok_halt h, fun v l' h => ?_⟩
  obtain ⟨h1, h2⟩ := Res.ok.inj h
  rw [Option.some.inj h1, h2]

theorem messageLoop_turn (cfg : Cfg) (body : P Body) (i : Option Comment) (n : Nat) (vs : List Visitee)
    (l : Lexer) :
    Follows (fun v => messageLoop cfg body i n (vs ++ [v])) (turn cfg body l)
      (messageLoop cfg body i (n + 1) vs l) := by
  suffices h : ∀ K : Visitee → Lexer → Res Lexer Err Body,
      (∀ v, K v = messageLoop cfg body i n (vs ++ [v])) → Follows K (turn cfg body l)
      (messageLoop cfg body i (n + 1) vs l) from h _ fun _ => rfl
  intro K hK
  unfold turn messageLoop
  refine follows_bind (fun cs l => ?_) l
  refine follows_bind (fun t l => ?_) l
  by_cases ht : t = .rightCurly
  · rw [if_pos ht]; exact follows_none l _
  · rw [if_neg ht, if_neg ht]
    refine follows_bind (fun s l => ?_) l
    refine follows_bind (fun s l => ?_) l
    rw [← hK]
    exact follows_pure s l

/-- If the rounds from two texts lead from each to the other, the loop does not end. -/
theorem messageLoop_forever {t t' : Str} {p b : Bool} {d m : Nat} {i : Option Comment}
    (h1 : ∀ l : Lexer, l.scanner.inp = t → l.scanner.mode = {} →
      turn ⟨p, b, m⟩ (messageBody ⟨p, b, m⟩ d) l = .halt .fuel ∨
      GoesTo t' (turn ⟨p, b, m⟩ (messageBody ⟨p, b, m⟩ d) l))
    (h2 : ∀ l : Lexer, l.scanner.inp = t' → l.scanner.mode = {} →
      turn ⟨p, b, m⟩ (messageBody ⟨p, b, m⟩ d) l = .halt .fuel ∨
      GoesTo t (turn ⟨p, b, m⟩ (messageBody ⟨p, b, m⟩ d) l))
    (n : Nat) (vs : List Visitee) (l : Lexer) (hl : l.scanner.inp = t ∨ l.scanner.inp = t')
    (hm : l.scanner.mode = {}) :
    messageLoop ⟨p, b, m⟩ (messageBody ⟨p, b, m⟩ d) i n vs l = .halt .fuel := by
  induction n generalizing vs l with
  | zero => rfl
  | succ n ih =>
    obtain ⟨a1, a2⟩ := messageLoop_turn ⟨p, b, m⟩ (messageBody ⟨p, b, m⟩ d) i n vs l
    have step : turn ⟨p, b, m⟩ (messageBody ⟨p, b, m⟩ d) l = .halt .fuel ∨
        ∃ u, (u = t ∨ u = t') ∧ GoesTo u (turn ⟨p, b, m⟩ (messageBody ⟨p, b, m⟩ d) l) := by
      rcases hl with hl | hl
      · exact (h1 l hl hm).imp id fun h => ⟨t', .inr rfl, h⟩
      · exact (h2 l hl hm).imp id fun h => ⟨t, .inl rfl, h⟩
    rcases step with h | ⟨u, hu, hg⟩
    · exact a1 h
    · revert hg a2
      cases turn ⟨p, b, m⟩ (messageBody ⟨p, b, m⟩ d) l with
      | err e s => intro _ h; exact h.elim
      | halt e => intro _ h; exact h.elim
      | ok x l' =>
        cases x with
        | none => intro _ h; cases h.1
        | some v =>
          intro a2 hg
          rw [a2 v l' rfl]
          exact ih _ l' (by rw [hg.2.1]; exact hu) hg.2.2

end Parser
end Verif
