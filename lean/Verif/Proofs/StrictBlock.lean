import Verif.Proofs.StrictSemi

/-!
# A strict run beside a permissive one: blocks and files
-/

set_option backward.isDefEq.respectTransparency false
set_option backward.dsimp.instances true

namespace Verif
open Spec Scanner Lexer Parser

variable {W V : Lexer → Prop} {b : Bool} {n n' : Nat}

/-! ## Right curlies -/

/-- A right curly is next. -/
structure AtCurly (l l' : Lexer) : Prop where
  full : Full l l'
  token : (nextSt {} l).token = .rightCurly

theorem full_putBack {l l' : Lexer} (h : Near l l') (m : Mode) : Full (putBack m l) (putBack m l') := by
  have := (asim_unNext (W := Never)).run _ _ (full_nextWith h m)
  rw [unNext_nextSt, unNext_nextSt] at this
  rcases this with ⟨_, _, h1, h2⟩ | h
  · injection h1 with _ h1
    rw [h1]; exact h2.2
  · exact h.elim

theorem asim_peekCurly {α β : Type} {Q : α → β → Lexer → Lexer → Prop} {f : Token → P α} {f' : Token → P β}
    (hf : ∀ t, t ≠ .rightCurly → ASim Full Q W (f t) (f' t)) (hc : ASim AtCurly Q W (f .rightCurly) (f' .rightCurly)) :
    ASim Near Q W (peekKeyword >>= f) (peekKeyword >>= f') := by
  refine ⟨fun l l' h => ?_⟩
  have e : ∀ l, Good l → peekKeyword l = .ok (nextSt .kw l).token (putBack .kw l) := by
    intro l hg
    unfold peekKeyword nextKeyword
    rw [bind_run (run_nextWith hg .kw), bind_run (m := tok) (l' := nextSt .kw l) (a := (nextSt .kw l).token) rfl,
      bind_run (unNext_nextSt .kw l)]
    rfl
  rw [bind_run (e l h.good), bind_run (e l' h.good')]
  have hf2 := full_nextWith h .kw
  rw [← show (nextSt .kw l).token = (nextSt .kw l').token from hf2.rel.token]
  by_cases hb : (nextSt .kw l).token = .rightCurly
  · rw [hb]
    refine hc.run _ _ ⟨full_putBack h _, ?_⟩
    obtain ⟨h1, h2⟩ := body_text (m := .kw) rfl hb (by simp) (by simp)
    simp [Reads, spelling, punctuation] at h2
    exact (lex_plain (m := .kw) rfl (c := '}') (by decide) (h1.trans h2)).2.2
  · exact (hf _ hb).run _ _ (full_putBack h _)

theorem asim_nextCurly {α β : Type} {Q : α → β → Lexer → Lexer → Prop} {f : Token → P α} {f' : Token → P β}
    (hf : ∀ t, t ≠ .rightCurly → ASim Full Q W (f t) (f' t)) (hc : ASim Curly Q W (f .rightCurly) (f' .rightCurly)) :
    ASim Near Q W (next >>= fun _ => tok >>= f) (next >>= fun _ => tok >>= f') := by
  refine ⟨fun l l' h => ?_⟩
  have hf2 := full_nextWith h {}
  rw [bind_run (run_next h.good), bind_run (run_next h.good'),
    bind_run (m := tok) (l' := nextSt {} l) (a := (nextSt {} l).token) rfl,
    bind_run (m := tok) (l' := nextSt {} l') (a := (nextSt {} l').token) rfl]
  rw [← show (nextSt {} l).token = (nextSt {} l').token from hf2.rel.token]
  by_cases hb : (nextSt {} l).token = .rightCurly
  · rw [hb]
    exact hc.run _ _ (curly_next h hb)
  · exact (hf _ hb).run _ _ hf2

theorem asim_nextAt : ASim AtCurly (Both Eq Curly) W next next := by
  refine ⟨fun l l' h => ?_⟩
  rw [run_next h.full.good, run_next h.full.good']
  exact .inl ⟨_, _, rfl, rfl, curly_next h.full.near h.token⟩

/-! ## Bodies -/

/-- The end of a block. -/
def QLast (p q : SPos) (l l' : Lexer) : Prop := (p = q ∧ NearLine l l') ∨ (p.p.offset < q.p.offset ∧ Semi l l')

def QBody (x y : Body) (l l' : Lexer) : Prop := RelaxedB x.1 y.1 ∧ x.2.1 = y.2.1 ∧ QLast x.2.2 y.2.2 l l'

theorem asim_closeBody {cs : List Comment} {vs vs' : List Visitee} {i : Option Comment} (h : RelaxedB vs vs') :
    ASim AtCurly QBody W (closeBody ⟨false, b, n⟩ cs vs i) (closeBody ⟨true, b, n'⟩ cs vs' i) := by
  unfold closeBody
  refine asim_nextAt.bind fun _ _ _ => ?_
  refine asim_lastPos.bindQ (W := Never) (fun p q => ?_) (fun _ => run_never)
  exact ASim.pure fun l l' hl => ⟨relaxed_append h (relaxed_comments b n n' cs), rfl, hl⟩

theorem asim_recover {e e' : Err} : ASim Full (Both RelaxedV Full) W (recoverEmpty e) (recoverEmpty e') := by
  unfold recoverEmpty
  refine asim_unNext.bind fun _ _ _ => ?_
  refine asim_tryEmpty.ofF.bind fun x y h => ?_
  cases h with
  | ok => exact ASim.same (.emptyStatement _) fun _ _ h => h
  | error => exact ASim.throw

theorem asim_full {v v' : Visitee} (h : RelaxedV v v') :
    ASim Full Shut W (pure v : P Visitee) (pure v' : P Visitee) := ASim.pure fun _ _ hl => .inl ⟨hl.nearLine, h⟩

theorem asim_shut {α β : Type} {I : Lexer → Lexer → Prop} {m : P α} {m' : P β} {R : α → β → Prop}
    (h : ASim I (Both R Full) Never m m') {f : α → Visitee} {f' : β → Visitee} (hf : ∀ a b, R a b → RelaxedV (f a) (f' b)) :
    ASim I Shut W (m >>= fun a => (pure (f a) : P Visitee)) (m' >>= fun a => (pure (f' a) : P Visitee)) :=
  h.bind fun a b hab => asim_full (hf a b hab)

/-! ## Enums -/

theorem asim_enumStmt (cs : List Comment) (t : Token) :
    ASim Full (Both RelaxedV Full) W (enumStmt ⟨false, b, n⟩ cs t) (enumStmt ⟨true, b, n'⟩ cs t) := by
  unfold enumStmt
  refine ASim.ite ?_ (ASim.ite ?_ ?_)
  · refine asim_option.ofF.bind fun x y h => ?_
    obtain ⟨k, h, rfl⟩ := h
    exact ASim.same (.option ⟨k, h, rfl⟩) fun _ _ h => h
  · refine asim_reserved.ofF.bind fun x y h => ?_
    subst h
    exact ASim.same (.reserved _) fun _ _ h => h
  · refine asim_enumField.ofF.attempt (W := Never) (fun x y => ?_) (fun _ => run_never) (fun _ _ => asim_recover)
      (fun e => doom_recover e)
    by_cases h : RelaxedEnumField x y
    · obtain ⟨k, h, rfl⟩ := h
      exact ASim.pure fun _ _ hl => ⟨.enumField ⟨k, h, rfl⟩, hl.2⟩
    · exact ASim.false fun _ _ hl => h hl.1

theorem asim_enumLoop (i : Option Comment) (k : Nat) : ∀ {vs vs' : List Visitee}, RelaxedB vs vs' →
    ASim Near QBody W (enumLoop ⟨false, b, n⟩ i k vs) (enumLoop ⟨true, b, n'⟩ i k vs') := by
  induction k with
  | zero => intro _ _ _; exact ASim.stop
  | succ k ih =>
    intro vs vs' hv
    unfold enumLoop
    refine asim_comments.bind fun cs _ e => ?_
    subst e
    refine ASim.ofF (asim_peekCurly (fun t ht => ?_) ?_)
    · rw [if_neg ht, if_neg ht]
      refine (asim_enumStmt _ _).bind fun x y h => ?_
      refine ((asim_maybeScan h).pre fun _ _ h => h.nearLine).bind fun x y h => ?_
      exact (ih (relaxed_append hv (.cons h .nil))).ofF
    · rw [if_pos rfl, if_pos rfl]
      exact asim_closeBody hv

/-- A block statement: another body, and another last position if a semicolon was read. -/
def QEnum (x y : Enum) (l l' : Lexer) : Prop :=
  ∃ vs p, RelaxedB x.enumBody vs ∧ y = { x with enumBody := vs, info.lastPos := p } ∧ x.inlineComment = none ∧
    ((p = x.info.lastPos ∧ NearLine l l') ∨ (x.info.lastPos.offset < p.offset ∧ Semi l l'))

theorem asim_enum : ASim Near QEnum W (parseEnum ⟨false, b, n⟩) (parseEnum ⟨true, b, n'⟩) := by
  unfold parseEnum nextKeyword parseEnumBody
  asim
  refine ASim.bindQ (Q := QBody) (W := Never) ?_ (fun x y => ?_) (fun _ => run_never)
  · asim
    exact (asim_enumLoop _ _ .nil).ofF
  · obtain ⟨x1, x2, x3⟩ := x
    obtain ⟨y1, y2, y3⟩ := y
    refine ASim.pure fun l l' h => ?_
    obtain ⟨h1, rfl, h3⟩ := h
    refine ⟨y1, y3.p, h1, rfl, rfl, ?_⟩
    exact h3.imp (fun h => ⟨by rw [show x3 = y3 from h.1], h.2⟩) id

theorem asim_enumS (cs : List Comment) : ASim Near Shut W
    (parseEnum ⟨false, b, n⟩ >>= fun x => (pure (.enum { x with comments := cs }) : P Visitee))
    (parseEnum ⟨true, b, n'⟩ >>= fun x => (pure (.enum { x with comments := cs }) : P Visitee)) := by
  refine asim_enum.bindQ (W := Never) (fun x y => ?_) (fun _ => run_never)
  refine ASim.pure fun l l' h => ?_
  obtain ⟨vs, p, h1, rfl, h2, h3⟩ := h
  rcases h3 with ⟨rfl, h3⟩ | ⟨hlt, h3⟩
  · exact .inl ⟨h3, .enum h1⟩
  · refine .inr ⟨h3, p, _, .enum (a := { x with comments := cs }) h1, hlt, ?_⟩
    simp [endedBy, h2]

/-! ## Extensions -/

theorem asim_extendStmt (cs : List Comment) :
    ASim Full (Both RelaxedV Full) W (extendStmt ⟨false, b, n⟩ cs) (extendStmt ⟨true, b, n'⟩ cs) := by
  unfold extendStmt
  refine asim_field.ofF.attempt (W := Never) (fun x y => ?_) (fun _ => run_never) (fun _ _ => asim_recover)
    (fun e => doom_recover e)
  by_cases h : RelaxedField x y
  · obtain ⟨k, h, rfl⟩ := h
    exact ASim.pure fun _ _ hl => ⟨.field ⟨k, h, rfl⟩, hl.2⟩
  · exact ASim.false fun _ _ hl => h hl.1

theorem asim_extendLoop (i : Option Comment) (k : Nat) : ∀ {vs vs' : List Visitee}, RelaxedB vs vs' →
    ASim Near QBody W (extendLoop ⟨false, b, n⟩ i k vs) (extendLoop ⟨true, b, n'⟩ i k vs') := by
  induction k with
  | zero => intro _ _ _; exact ASim.stop
  | succ k ih =>
    intro vs vs' hv
    unfold extendLoop
    refine asim_comments.bind fun cs _ e => ?_
    subst e
    refine ASim.ofF (asim_peekCurly (fun t ht => ?_) ?_)
    · rw [if_neg ht, if_neg ht]
      refine (asim_extendStmt _).bind fun x y h => ?_
      refine ((asim_maybeScan h).pre fun _ _ h => h.nearLine).bind fun x y h => ?_
      exact (ih (relaxed_append hv (.cons h .nil))).ofF
    · rw [if_pos rfl, if_pos rfl]
      exact asim_closeBody hv

def QExtend (x y : Extend) (l l' : Lexer) : Prop :=
  ∃ vs p, RelaxedB x.extendBody vs ∧ y = { x with extendBody := vs, info.lastPos := p } ∧ x.inlineComment = none ∧
    ((p = x.info.lastPos ∧ NearLine l l') ∨ (x.info.lastPos.offset < p.offset ∧ Semi l l'))

theorem asim_extend : ASim Near QExtend W (parseExtend ⟨false, b, n⟩) (parseExtend ⟨true, b, n'⟩) := by
  unfold parseExtend nextKeyword parseExtendBody
  asim
  refine ASim.bindQ (Q := QBody) (W := Never) ?_ (fun x y => ?_) (fun _ => run_never)
  · refine (asim_expect asim_next).ofF.bind fun _ _ _ => ?_
    refine (asim_inline.pre fun _ _ h => h.nearLine).bind fun i _ e => ?_
    subst e
    refine ASim.ofF (asim_nextCurly (fun t ht => ?_) ?_)
    · rw [if_neg ht, if_neg ht]
      asim
      exact (asim_extendLoop _ _ .nil).ofF
    · rw [if_pos rfl, if_pos rfl]
      refine asim_lastPos.bindQ (W := Never) (fun p q => ?_) (fun _ => run_never)
      exact ASim.pure fun l l' hl => ⟨.nil, rfl, hl⟩
  · obtain ⟨x1, x2, x3⟩ := x
    obtain ⟨y1, y2, y3⟩ := y
    refine ASim.pure fun l l' h => ?_
    obtain ⟨h1, rfl, h3⟩ := h
    refine ⟨y1, y3.p, h1, rfl, rfl, ?_⟩
    exact h3.imp (fun h => ⟨by rw [show x3 = y3 from h.1], h.2⟩) id

theorem asim_extendS (cs : List Comment) : ASim Near Shut W
    (parseExtend ⟨false, b, n⟩ >>= fun x => (pure (.extend { x with comments := cs }) : P Visitee))
    (parseExtend ⟨true, b, n'⟩ >>= fun x => (pure (.extend { x with comments := cs }) : P Visitee)) := by
  refine asim_extend.bindQ (W := Never) (fun x y => ?_) (fun _ => run_never)
  refine ASim.pure fun l l' h => ?_
  obtain ⟨vs, p, h1, rfl, h2, h3⟩ := h
  rcases h3 with ⟨rfl, h3⟩ | ⟨hlt, h3⟩
  · exact .inl ⟨h3, .extend h1⟩
  · refine .inr ⟨h3, p, _, .extend (a := { x with comments := cs }) h1, hlt, ?_⟩
    simp [endedBy, h2]

/-! ## Oneofs -/

def RElement : Sum OptionStmt OneofField → Sum OptionStmt OneofField → Prop
  | .inl a, .inl b => RelaxedOption a b
  | .inr a, .inr b => RelaxedOneofField a b
  | _, _ => False

theorem asim_oneofElement (cs : List Comment) :
    ASim Full (Both RElement Full) W (parseOneofElement ⟨false, b, n⟩ cs) (parseOneofElement ⟨true, b, n'⟩ cs) := by
  unfold parseOneofElement
  refine asim_peekKeyword.ofF.bind fun t _ e => ?_
  subst e
  refine ASim.ite ?_ ?_
  · refine asim_option.ofF.bind fun x y h => ?_
    obtain ⟨k, h, rfl⟩ := h
    refine (asim_inline.pre fun _ _ h => h.nearLine).bind fun i _ e => ?_
    subst e
    exact ASim.same (show RelaxedOption _ _ from ⟨k, h, rfl⟩) fun _ _ h => h
  · refine asim_oneofField.ofF.bind fun x y h => ?_
    obtain ⟨k, h, rfl⟩ := h
    refine (asim_inline.pre fun _ _ h => h.nearLine).bind fun i _ e => ?_
    subst e
    exact ASim.same (show RelaxedOneofField _ _ from ⟨k, h, rfl⟩) fun _ _ h => h

def ROneof (x y : List OneofField × List OptionStmt) : Prop :=
  AlikeList RelaxedOneofField x.1 y.1 ∧ AlikeList RelaxedOption x.2 y.2

theorem asim_oneofLoop (k : Nat) : ∀ {fs fs' : List OneofField} {os os' : List OptionStmt},
    AlikeList RelaxedOneofField fs fs' → AlikeList RelaxedOption os os' →
    ASim Near (Both ROneof Curly) W (oneofLoop ⟨false, b, n⟩ k fs os) (oneofLoop ⟨true, b, n'⟩ k fs' os') := by
  induction k with
  | zero => intro _ _ _ _ _ _; exact ASim.stop
  | succ k ih =>
    intro fs fs' os os' hf ho
    unfold oneofLoop
    refine asim_comments.bind fun cs _ e => ?_
    subst e
    refine asim_tryEmpty.ofF.bind fun x y h => ?_
    cases h with
    | ok => exact (ih hf ho).ofF
    | error =>
      refine (asim_oneofElement _).bind fun x y h => ?_
      cases x with
      | inl x =>
        cases y with
        | inr y => exact h.elim
        | inl y =>
          refine ASim.ofF (asim_nextCurly (fun t ht => ?_) ?_)
          · rw [if_neg ht, if_neg ht]
            refine asim_unNext.bind fun _ _ _ => ?_
            exact (ih hf (alike_snoc ho h)).ofF
          · rw [if_pos rfl, if_pos rfl]
            exact ASim.same ⟨hf, alike_snoc ho h⟩ fun _ _ h => h
      | inr x =>
        cases y with
        | inl y => exact h.elim
        | inr y =>
          refine ASim.ofF (asim_nextCurly (fun t ht => ?_) ?_)
          · rw [if_neg ht, if_neg ht]
            refine asim_unNext.bind fun _ _ _ => ?_
            exact (ih (alike_snoc hf h) ho).ofF
          · rw [if_pos rfl, if_pos rfl]
            exact ASim.same ⟨alike_snoc hf h, ho⟩ fun _ _ h => h

def QOneof (x y : Oneof) (l l' : Lexer) : Prop :=
  ∃ z p, RelaxedOneof x z ∧ y = { z with info.lastPos := p } ∧ x.inlineComment = none ∧
    ((p = x.info.lastPos ∧ NearLine l l') ∨ (x.info.lastPos.offset < p.offset ∧ Semi l l'))

theorem asim_oneof : ASim Near QOneof W (parseOneof ⟨false, b, n⟩) (parseOneof ⟨true, b, n'⟩) := by
  unfold parseOneof nextKeyword
  asim
  refine (asim_oneofLoop _ .nil .nil).ofF.bind fun x y h => ?_
  obtain ⟨x1, x2⟩ := x
  obtain ⟨y1, y2⟩ := y
  refine asim_lastPos.bindQ (W := Never) (fun p q => ?_) (fun _ => run_never)
  refine ASim.pure fun l l' hl => ?_
  refine ⟨_, q.p, ⟨y1, y2, h.1, h.2, rfl⟩, rfl, rfl, ?_⟩
  exact hl.imp (fun h => ⟨by rw [show p = q from h.1], h.2⟩) id

theorem asim_oneofS (cs : List Comment) : ASim Near Shut W
    (parseOneof ⟨false, b, n⟩ >>= fun x => (pure (.oneof { x with comments := cs }) : P Visitee))
    (parseOneof ⟨true, b, n'⟩ >>= fun x => (pure (.oneof { x with comments := cs }) : P Visitee)) := by
  refine asim_oneof.bindQ (W := Never) (fun x y => ?_) (fun _ => run_never)
  refine ASim.pure fun l l' h => ?_
  obtain ⟨z, p, ⟨fs, os, h1, h1', rfl⟩, rfl, h2, h3⟩ := h
  rcases h3 with ⟨rfl, h3⟩ | ⟨hlt, h3⟩
  · exact .inl ⟨h3, .oneof ⟨fs, os, h1, h1', rfl⟩⟩
  · refine .inr ⟨h3, p, _, .oneof (a := { x with comments := cs }) ⟨fs, os, h1, h1', rfl⟩, hlt, ?_⟩
    simp [endedBy, h2]

/-! ## Messages and groups -/

def QMessage (x y : Message) (l l' : Lexer) : Prop :=
  ∃ vs p, RelaxedB x.messageBody vs ∧ y = { x with messageBody := vs, info.lastPos := p } ∧ x.inlineComment = none ∧
    ((p = x.info.lastPos ∧ NearLine l l') ∨ (x.info.lastPos.offset < p.offset ∧ Semi l l'))

def QGroup (x y : GroupField) (l l' : Lexer) : Prop :=
  ∃ vs p, RelaxedB x.messageBody vs ∧ y = { x with messageBody := vs, info.lastPos := p } ∧ x.inlineComment = none ∧
    ((p = x.info.lastPos ∧ NearLine l l') ∨ (x.info.lastPos.offset < p.offset ∧ Semi l l'))

section
variable {body body' : P Body} (hbody : ASim Near QBody Never body body')

include hbody in
theorem asim_messageWith : ASim Near QMessage W (parseMessageWith body) (parseMessageWith body') := by
  unfold parseMessageWith nextKeyword
  asim
  refine hbody.ofF.bindQ (W := Never) (fun x y => ?_) (fun _ => run_never)
  obtain ⟨x1, x2, x3⟩ := x
  obtain ⟨y1, y2, y3⟩ := y
  refine ASim.pure fun l l' h => ?_
  obtain ⟨h1, rfl, h3⟩ := h
  refine ⟨y1, y3.p, h1, rfl, rfl, ?_⟩
  exact h3.imp (fun h => ⟨by rw [show x3 = y3 from h.1], h.2⟩) id

include hbody in
theorem asim_groupWith : ASim Near QGroup W (parseGroupFieldWith body) (parseGroupFieldWith body') := by
  unfold parseGroupFieldWith nextKeyword
  asim
  refine hbody.ofF.bindQ (W := Never) (fun x y => ?_) (fun _ => run_never)
  obtain ⟨x1, x2, x3⟩ := x
  obtain ⟨y1, y2, y3⟩ := y
  refine ASim.pure fun l l' h => ?_
  obtain ⟨h1, rfl, h3⟩ := h
  refine ⟨y1, y3.p, h1, rfl, rfl, ?_⟩
  exact h3.imp (fun h => ⟨by rw [show x3 = y3 from h.1], h.2⟩) id

include hbody in
theorem asim_messageS (cs : List Comment) : ASim Near Shut W
    (parseMessageWith body >>= fun x => (pure (.message { x with comments := cs }) : P Visitee))
    (parseMessageWith body' >>= fun x => (pure (.message { x with comments := cs }) : P Visitee)) := by
  refine (asim_messageWith hbody).bindQ (W := Never) (fun x y => ?_) (fun _ => run_never)
  refine ASim.pure fun l l' h => ?_
  obtain ⟨vs, p, h1, rfl, h2, h3⟩ := h
  rcases h3 with ⟨rfl, h3⟩ | ⟨hlt, h3⟩
  · exact .inl ⟨h3, .message h1⟩
  · refine .inr ⟨h3, p, _, .message (a := { x with comments := cs }) h1, hlt, ?_⟩
    simp [endedBy, h2]

include hbody in
theorem asim_fieldStmt (cs : List Comment) :
    ASim Full Shut W (fieldStmt ⟨false, b, n⟩ body cs) (fieldStmt ⟨true, b, n'⟩ body' cs) := by
  unfold fieldStmt
  refine asim_isGroup.ofF.bind fun g _ e => ?_
  subst e
  refine ASim.ite ?_ ?_
  · refine (asim_groupWith hbody).ofF.attempt (W := Never) (fun x y => ?_) (fun _ => run_never)
      (fun _ _ => asim_recover.post fun _ _ _ _ h => .inl ⟨h.2.nearLine, h.1⟩) (fun e => doom_recover e)
    refine ASim.pure fun l l' h => ?_
    obtain ⟨vs, p, h1, rfl, h2, h3⟩ := h
    rcases h3 with ⟨rfl, h3⟩ | ⟨hlt, h3⟩
    · exact .inl ⟨h3, .groupField h1⟩
    · refine .inr ⟨h3, p, _, .groupField (a := { x with comments := cs }) h1, hlt, ?_⟩
      simp [endedBy, h2]
  · refine asim_field.ofF.attempt (W := Never) (fun x y => ?_) (fun _ => run_never)
      (fun _ _ => asim_recover.post fun _ _ _ _ h => .inl ⟨h.2.nearLine, h.1⟩) (fun e => doom_recover e)
    refine ASim.pure fun l l' h => ?_
    obtain ⟨⟨k, h, rfl⟩, hl⟩ := h
    exact .inl ⟨hl.nearLine, .field ⟨k, h, rfl⟩⟩

include hbody in
theorem asim_messageStmt (cs : List Comment) (t : Token) :
    ASim Full Shut W (messageStmt ⟨false, b, n⟩ body cs t) (messageStmt ⟨true, b, n'⟩ body' cs t) := by
  unfold messageStmt
  split
  · exact (asim_enumS cs).ofF
  · exact (asim_messageS hbody cs).ofF
  · refine asim_shut asim_option.ofF fun a b h => ?_
    obtain ⟨k, h, rfl⟩ := h
    exact .option ⟨k, h, rfl⟩
  · exact (asim_oneofS cs).ofF
  · refine asim_shut asim_mapField.ofF fun a b h => ?_
    obtain ⟨k, h, rfl⟩ := h
    exact .mapField ⟨k, h, rfl⟩
  · exact (asim_extendS cs).ofF
  · refine asim_shut asim_reserved.ofF fun a b h => ?_
    subst h
    exact .reserved _
  · refine asim_shut asim_extensions.ofF fun a b h => ?_
    subst h
    exact .extensions _
  · exact asim_fieldStmt hbody cs

end

/-! ### The strict loops on a semicolon -/

section
variable {r : Str} {p : SPos} {l : Lexer}

theorem comments_semi (h : SemiTo r p l) : ∃ cs l', parseComments l = .ok cs l' ∧ SemiTo r p l' := by
  have := parseComments_sat (H := fun _ => False) (E := fun _ _ => False) h.good
  revert this
  cases parseComments l with
  | ok cs l1 => exact fun hh => ⟨cs, l1, rfl, h.took (hh.1.took hh.2.1 hh.2.2.1)⟩
  | err e l1 => exact fun h => h.elim
  | halt h => exact fun h => h.elim

theorem keyword_semi (h : SemiTo r p l) : ∃ l', peekKeyword l = .ok .semicolon l' ∧ SemiTo r p l' := by
  refine ⟨putBack .kw l, ?_, h.putBack _⟩
  unfold peekKeyword nextKeyword
  rw [bind_run (run_nextWith h.good .kw), bind_run (m := tok) (l' := nextSt .kw l) (a := (nextSt .kw l).token) rfl,
    bind_run (unNext_nextSt .kw l), (h.mode (m := .kw) rfl).1]
  rfl

theorem empty_semi (h : SemiTo r p l) : readEmptyStatement l = .ok () (nextSt {} l) := by
  rw [readEmptyStatement_eq h.good, if_pos h.next.1]

theorem group_semi (h : SemiTo r p l) : ∃ l', peekIsGroup l = .ok false l' ∧ SemiTo r p l' := by
  have h1 := h.putBack .kw
  refine ⟨putBack .kw (putBack .kw l), ?_, h1.putBack _⟩
  have ht := (h.mode (m := .kw) rfl).1
  have ht1 := (h1.mode (m := .kw) rfl).1
  unfold peekIsGroup nextKeyword
  rw [bind_run (run_nextWith h.good .kw), bind_run (m := tok) (l' := nextSt .kw l) (a := (nextSt .kw l).token) rfl,
    if_neg (by rw [ht]; simp), bind_run (unNext_nextSt .kw l)]
  unfold peekGroupKeyword nextKeyword
  generalize putBack .kw l = l1 at h1 ht1
  rw [bind_run (run_nextWith h1.good .kw),
    bind_run (m := rawText) (l' := nextSt .kw l1) (a := (nextSt .kw l1).rawText) rfl,
    bind_run (m := tok) (l' := nextSt .kw l1) (a := (nextSt .kw l1).token) rfl, if_pos (by rw [ht1]; simp)]
  have : unNextTo (nextSt .kw l1).rawText (nextSt .kw l1) = .ok () (putBack .kw l1) := by
    rw [← unNext_nextSt .kw l1]
    unfold unNextTo
    rw [bind_run (l' := nextSt .kw l1) (a := ()) ?_]
    rfl
  rw [bind_run this]
  rfl

theorem field_semi (h : SemiTo r p l) : ∃ e l0, parseField ⟨false, b, n⟩ l = .err e (nextSt {} l0) ∧ SemiTo r p l0 := by
  have : Sat (fun _ => False) (fun _ _ => False) (fun _ l' => ∃ l0, l' = nextSt {} l0 ∧ SemiTo r p l0)
      (parseField ⟨false, b, n⟩ l) := by
    unfold parseField
    refine sat_nextWith h.good ?_
    rw [sat_position]
    refine Sat.bind (Q := fun _ l' => SemiTo r p l') ?_ ?_
    · have h1 := (h.mode (m := .kw) rfl).1
      unfold parseLabel
      rw [sat_tok]
      refine sat_neg (by simp [h1]) (sat_neg (by simp [h1]) (sat_neg (by simp [h1]) ?_))
      refine sat_unNext ?_
      exact h.putBack _
    intro _ l1 h
    refine Sat.bind (Q := fun _ _ => False) ?_ (fun _ _ h => h.elim)
    unfold orUnexpected
    refine Sat.bind (Q := fun x l' => (∃ e, x = .error e) ∧ ∃ l0, l' = nextSt {} l0 ∧ SemiTo r p l0) ?_ ?_
    · refine Sat.attempt (Q := fun _ _ => False) (E := fun _ l' => ∃ l0, l' = nextSt {} l0 ∧ SemiTo r p l0) ?_
        (fun _ _ h => h.elim) (fun e _ h => ⟨⟨e, rfl⟩, h⟩)
      unfold parseType
      refine sat_next h.good ?_
      rw [sat_txt]
      refine sat_neg (by rw [h.next.2.1]; decide) ?_
      refine sat_unNext ?_
      replace h := h.putBack {}
      generalize putBack {} l1 = l2 at h
      unfold readMessageType
      refine sat_next h.good ?_
      rw [sat_position]
      refine Sat.bind (Q := fun _ l' => SemiTo r p l') ?_ ?_
      · unfold readLeadingDot
        rw [sat_tok]
        refine sat_neg (by simp [h.next.1]) ?_
        refine sat_unNext ?_
        exact h.putBack {}
      · intro _ l3 h
        refine sat_next h.good ?_
        rw [sat_bound]
        refine Sat.bind (Q := fun _ _ => False) ?_ (fun _ _ h => h.elim)
        unfold readMessageTypeLoop
        have ht := h.next.1
        refine sat_run (m := Lexer.isEOF) (a := false) (l' := nextSt {} l3) ?_ ?_
        · show Res.ok _ _ = _
          rw [ht]; rfl
        refine sat_neg (by simp) ?_
        rw [sat_tok]
        refine sat_pos (by simp [ht]) ?_
        exact ⟨l3, rfl, h⟩
    · rintro _ l2 ⟨⟨e, rfl⟩, h⟩
      exact h
  revert this
  cases parseField ⟨false, b, n⟩ l with
  | ok a l1 => exact fun h => h.elim
  | err e l1 =>
    rintro ⟨l0, rfl, h⟩
    exact ⟨e, l0, rfl, h⟩
  | halt h => exact fun h => h.elim

theorem fieldStmt_semi (h : SemiTo r p l) (body : P Body) (cs : List Comment) :
    ∃ l0, fieldStmt ⟨false, b, n⟩ body cs l = .ok (.emptyStatement {}) (nextSt {} l0) ∧ SemiTo r p l0 := by
  obtain ⟨l1, e1, h1⟩ := group_semi h
  obtain ⟨e, l2, e2, h2⟩ := field_semi (b := b) (n := n) h1
  refine ⟨putBack {} l2, ?_, h2.putBack _⟩
  unfold fieldStmt
  rw [bind_run e1, if_neg (by simp)]
  rw [bind_run (m := M.attempt (parseField ⟨false, b, n⟩)) (a := .error e) (l' := nextSt {} l2)
    (by unfold M.attempt; rw [e2])]
  simp only
  unfold recoverEmpty
  rw [bind_run (unNext_nextSt {} l2)]
  rw [bind_run (m := M.attempt readEmptyStatement) (a := .ok ()) (l' := nextSt {} (putBack {} l2))
    (by unfold M.attempt; rw [empty_semi (h2.putBack _)])]
  rfl

end

theorem eats_message (body : P Body) (i : Option Comment) : Eats (messageLoop ⟨false, b, n⟩ body i) [] (.emptyStatement {}) where
  zero _ := rfl
  kind := .inl ⟨rfl, rfl⟩
  step k vs r p l h := by
    obtain ⟨cs, l1, e1, h1⟩ := comments_semi h
    obtain ⟨l2, e2, h2⟩ := keyword_semi h1
    obtain ⟨l3, e3, h3⟩ := fieldStmt_semi (b := b) (n := n) h2 body cs
    refine ⟨l3, h3, ?_⟩
    conv => lhs; unfold messageLoop
    rw [bind_run e1, bind_run e2, if_neg (by simp), List.append_nil]
    exact bind_run e3

theorem asim_messageLoop {body body' : P Body} (hbody : ASim Near QBody Never body body') (i : Option Comment) :
    ∀ k k' : Nat, k ≤ k' → ∀ vs vs' : List Visitee, RelaxedB vs vs' →
    ASim Near QBody W (messageLoop ⟨false, b, n⟩ body i k vs) (messageLoop ⟨true, b, n'⟩ body' i k' vs') := by
  intro k
  induction k using Nat.strongRecOn with
  | ind k ih =>
    intro k' hk vs vs' hv
    cases k with
    | zero => exact ASim.stop
    | succ k =>
      obtain ⟨k', rfl⟩ : ∃ j, k' = j + 1 := ⟨k' - 1, by omega⟩
      unfold messageLoop
      refine asim_comments.bind fun cs _ e => ?_
      subst e
      refine ASim.ofF (asim_peekCurly (fun t ht => ?_) ?_)
      · rw [if_neg ht, if_neg ht]
        refine (asim_messageStmt hbody cs t).bindQ (W := Never) (fun v v' => ?_) (fun _ => run_never)
        exact asim_ended (eats_message body i) (fun j hj vs vs' hv => ih j (by omega) k' (by omega) vs vs' hv) v v' hv
      · rw [if_pos rfl, if_pos rfl]
        exact asim_closeBody hv

theorem asim_messageBody (hn : n ≤ n') {d d' : Nat} (hd : d ≤ d') :
    ASim Near QBody W (messageBody ⟨false, b, n⟩ d) (messageBody ⟨true, b, n'⟩ d') := by
  induction d generalizing d' W with
  | zero => exact ASim.stop
  | succ d ih =>
    obtain ⟨d', rfl⟩ : ∃ j, d' = j + 1 := ⟨d' - 1, by omega⟩
    unfold messageBody messageBodyWith
    refine (asim_expect asim_next).bind fun _ _ _ => ?_
    refine (asim_inline.pre fun _ _ h => h.nearLine).bind fun i _ e => ?_
    subst e
    refine ASim.ofF (asim_nextCurly (fun t ht => ?_) ?_)
    · rw [if_neg ht, if_neg ht]
      refine asim_unNext.bind fun _ _ _ => ?_
      exact (asim_messageLoop (ih (by omega)) i n n' hn [] [] .nil).ofF
    · rw [if_pos rfl, if_pos rfl]
      refine asim_lastPos.bindQ (W := Never) (fun p q => ?_) (fun _ => run_never)
      exact ASim.pure fun l l' hl => ⟨.nil, rfl, hl⟩

/-! ## Services -/

theorem asim_rpcOptionsStmt : ASim Near (Both (AlikeList RelaxedOption) Full) W (rpcOptionsStmt ⟨false, b, n⟩)
    (rpcOptionsStmt ⟨true, b, n'⟩) := by
  unfold rpcOptionsStmt
  refine asim_peekKeyword.bind fun t _ e => ?_
  subst e
  refine ASim.ite ?_ (ASim.ite ?_ ?_)
  · exact asim_option.ofF.bind fun x y h => ASim.same (.cons h .nil) fun _ _ h => h
  · exact ASim.same .nil fun _ _ h => h
  · exact asim_readEmpty.ofF.bind fun _ _ _ => ASim.same .nil fun _ _ h => h

theorem asim_rpcOptionsLoop (k : Nat) : ∀ {os os' : List OptionStmt}, AlikeList RelaxedOption os os' →
    ASim Near (Both (AlikeList RelaxedOption) Curly) W (rpcOptionsLoop ⟨false, b, n⟩ k os)
      (rpcOptionsLoop ⟨true, b, n'⟩ k os') := by
  induction k with
  | zero => intro _ _ _; exact ASim.stop
  | succ k ih =>
    intro os os' h
    unfold rpcOptionsLoop
    refine asim_rpcOptionsStmt.bind fun x y hx => ?_
    refine ASim.ofF (asim_nextCurly (fun t ht => ?_) ?_)
    · rw [if_neg ht, if_neg ht]
      refine asim_unNext.bind fun _ _ _ => ?_
      exact (ih (alike_append h hx)).ofF
    · rw [if_pos rfl, if_pos rfl]
      exact ASim.same (alike_append h hx) fun _ _ h => h

def QRpc (x y : RPC) (l l' : Lexer) : Prop :=
  ∃ z p, RelaxedRPC x z ∧ y = { z with info.lastPos := p } ∧ x.inlineComment = none ∧
    ((p = x.info.lastPos ∧ NearLine l l') ∨ (x.info.lastPos.offset < p.offset ∧ Semi l l'))

theorem asim_embedded (p q : SPos) : ASim Full (Both (fun _ _ => True) Full) W (findEmbeddedComments p q)
    (findEmbeddedComments p q) := ⟨fun _ _ h => .inl ⟨_, _, rfl, trivial, h⟩⟩

theorem asim_rpc : ASim Near QRpc W (parseRPC ⟨false, b, n⟩) (parseRPC ⟨true, b, n'⟩) := by
  unfold parseRPC nextKeyword
  asim
  refine (asim_embedded _ _).bind fun c c' _ => ?_
  refine asim_tok.bind fun t _ e => ?_
  subst e
  refine ASim.ite ?_ (ASim.ite ?_ ASim.perr)
  · unfold parseRPCOptions
    asim
    refine ASim.bind (R := fun x y => AlikeList RelaxedOption x.1 y.1 ∧ x.2 = y.2) (O := Curly) ?_ fun x y h => ?_
    · asim
      refine (asim_rpcOptionsLoop _ .nil).ofF.bind fun x y h => ?_
      exact ASim.same ⟨h, rfl⟩ fun _ _ h => h
    obtain ⟨x1, x2⟩ := x
    obtain ⟨y1, y2⟩ := y
    obtain ⟨h1, h2⟩ := h
    simp only at h2
    subst h2
    refine asim_lastPos.bindQ (W := Never) (fun p q => ?_) (fun _ => run_never)
    refine ASim.pure fun l l' hl => ?_
    refine ⟨_, q.p, ⟨y1, c', h1, rfl⟩, rfl, rfl, ?_⟩
    exact hl.imp (fun h => ⟨by rw [show p = q from h.1], h.2⟩) id
  · refine ASim.pure fun l l' hl => ?_
    exact ⟨_, _, ⟨[], c', .nil, rfl⟩, rfl, rfl, .inl ⟨rfl, hl.nearLine⟩⟩

theorem asim_serviceStmt (cs : List Comment) (t : Token) :
    ASim Full Shut W (serviceStmt ⟨false, b, n⟩ cs t) (serviceStmt ⟨true, b, n'⟩ cs t) := by
  unfold serviceStmt
  refine ASim.ite ?_ (ASim.ite ?_ ?_)
  · refine asim_shut asim_option.ofF fun a b h => ?_
    obtain ⟨k, h, rfl⟩ := h
    exact .option ⟨k, h, rfl⟩
  · refine asim_rpc.ofF.bindQ (W := Never) (fun x y => ?_) (fun _ => run_never)
    refine ASim.pure fun l l' h => ?_
    obtain ⟨z, p, ⟨os, c, h1, rfl⟩, rfl, h2, h3⟩ := h
    rcases h3 with ⟨rfl, h3⟩ | ⟨hlt, h3⟩
    · exact .inl ⟨h3, .rpc ⟨os, c, h1, rfl⟩⟩
    · refine .inr ⟨h3, p, _, .rpc (a := { x with comments := cs }) ⟨os, c, h1, rfl⟩, hlt, ?_⟩
      simp [endedBy, h2]
  · exact asim_readEmpty.ofF.bind fun _ _ _ => asim_full (.emptyStatement _)

theorem eats_service (i : Option Comment) : Eats (serviceLoop ⟨false, b, n⟩ i) [] (.emptyStatement {}) where
  zero _ := rfl
  kind := .inl ⟨rfl, rfl⟩
  step k vs r p l h := by
    obtain ⟨cs, l1, e1, h1⟩ := comments_semi h
    obtain ⟨l2, e2, h2⟩ := keyword_semi h1
    refine ⟨l2, h2, ?_⟩
    conv => lhs; unfold serviceLoop
    rw [bind_run e1, bind_run e2, if_neg (by simp), List.append_nil]
    refine bind_run ?_
    unfold serviceStmt
    rw [if_neg (by simp), if_neg (by simp), bind_run (empty_semi h2)]
    rfl

theorem asim_serviceLoop (i : Option Comment) : ∀ k k' : Nat, k ≤ k' → ∀ vs vs' : List Visitee, RelaxedB vs vs' →
    ASim Near QBody W (serviceLoop ⟨false, b, n⟩ i k vs) (serviceLoop ⟨true, b, n'⟩ i k' vs') := by
  intro k
  induction k using Nat.strongRecOn with
  | ind k ih =>
    intro k' hk vs vs' hv
    cases k with
    | zero => exact ASim.stop
    | succ k =>
      obtain ⟨k', rfl⟩ : ∃ j, k' = j + 1 := ⟨k' - 1, by omega⟩
      unfold serviceLoop
      refine asim_comments.bind fun cs _ e => ?_
      subst e
      refine ASim.ofF (asim_peekCurly (fun t ht => ?_) ?_)
      · rw [if_neg ht, if_neg ht]
        refine (asim_serviceStmt cs t).bindQ (W := Never) (fun v v' => ?_) (fun _ => run_never)
        exact asim_ended (eats_service i) (fun j hj vs vs' hv => ih j (by omega) k' (by omega) vs vs' hv) v v' hv
      · rw [if_pos rfl, if_pos rfl]
        exact asim_closeBody hv

def QService (x y : Service) (l l' : Lexer) : Prop :=
  ∃ vs p, RelaxedB x.serviceBody vs ∧ y = { x with serviceBody := vs, info.lastPos := p } ∧ x.inlineComment = none ∧
    ((p = x.info.lastPos ∧ NearLine l l') ∨ (x.info.lastPos.offset < p.offset ∧ Semi l l'))

theorem asim_service : ASim Near QService W (parseService ⟨false, b, n⟩) (parseService ⟨true, b, n'⟩) := by
  unfold parseService nextKeyword parseServiceBody
  asim
  refine ASim.bindQ (Q := QBody) (W := Never) ?_ (fun x y => ?_) (fun _ => run_never)
  · asim
    exact (asim_serviceLoop _ _ _ (Nat.le_refl _) _ _ .nil).ofF
  · obtain ⟨x1, x2, x3⟩ := x
    obtain ⟨y1, y2, y3⟩ := y
    refine ASim.pure fun l l' h => ?_
    obtain ⟨h1, rfl, h3⟩ := h
    refine ⟨y1, y3.p, h1, rfl, rfl, ?_⟩
    exact h3.imp (fun h => ⟨by rw [show x3 = y3 from h.1], h.2⟩) id

/-! ## Files -/

/-- The statements of a file. -/
def QTop (x y : List Visitee × Visitee) (l l' : Lexer) : Prop :=
  (x.1 = [] ∧ y.1 = [] ∧ Shut x.2 y.2 l l') ∨
  (x.1 = [.emptyStatement {}] ∧ y.1 = [.emptyStatement {}] ∧ x.2 = .nil ∧ y.2 = .nil ∧ Full l l')

theorem asim_top {α β : Type} {m : P α} {m' : P β}
    {f : α → Visitee} {f' : β → Visitee}
    (h : ASim Near Shut Never (m >>= fun a => (pure (f a) : P Visitee)) (m' >>= fun a => (pure (f' a) : P Visitee))) :
    ASim Full QTop W (m >>= fun a => (pure ([], f a) : P (List Visitee × Visitee)))
      (m' >>= fun a => (pure ([], f' a) : P (List Visitee × Visitee))) := by
  have := h.ofF.bindQ (S := QTop) (V := W) (f := fun v => (pure ([], v) : P (List Visitee × Visitee)))
    (f' := fun v => (pure ([], v) : P (List Visitee × Visitee)))
    (fun a b => ASim.pure fun l l' h => .inl ⟨rfl, rfl, h⟩) (fun _ => run_never)
  refine ⟨fun l l' hl => ?_⟩
  have := this.run l l' hl
  revert this
  show ARes _ _ (M.bind (M.bind m _) _ l) (M.bind (M.bind m' _) _ l') → ARes _ _ (M.bind m _ l) (M.bind m' _ l')
  unfold M.bind
  cases m l <;> cases m' l' <;> exact id

theorem asim_protoStmt (hn : n ≤ n') (cs : List Comment) (t : Token) :
    ASim Full QTop W (protoStmt ⟨false, b, n⟩ cs t) (protoStmt ⟨true, b, n'⟩ cs t) := by
  unfold protoStmt
  split
  · refine asim_top (asim_shut asim_import fun a b h => ?_)
    subst h
    exact .importStmt _
  · refine asim_top (asim_shut asim_package fun a b h => ?_)
    subst h
    exact .package _
  · refine asim_top (asim_shut asim_option fun a b h => ?_)
    obtain ⟨k, h, rfl⟩ := h
    exact .option ⟨k, h, rfl⟩
  · exact asim_top (asim_messageS (asim_messageBody hn hn) cs)
  · exact asim_top (asim_enumS cs)
  · refine asim_top ?_
    refine asim_service.bindQ (W := Never) (fun x y => ?_) (fun _ => run_never)
    refine ASim.pure fun l l' h => ?_
    obtain ⟨vs, p, h1, rfl, h2, h3⟩ := h
    rcases h3 with ⟨rfl, h3⟩ | ⟨hlt, h3⟩
    · exact .inl ⟨h3, .service h1⟩
    · refine .inr ⟨h3, p, _, .service (a := { x with comments := cs }) h1, hlt, ?_⟩
      simp [endedBy, h2]
  · exact asim_top (asim_extendS cs)
  · exact asim_readEmpty.ofF.bind fun _ _ _ => ASim.pure fun _ _ h => .inr ⟨rfl, rfl, rfl, rfl, h⟩

theorem eof_semi {r : Str} {p : SPos} {l : Lexer} (h : SemiTo r p l) :
    ∃ l', Parser.isEOF l = .ok false l' ∧ SemiTo r p l' := by
  refine ⟨putBack {} l, ?_, h.putBack _⟩
  unfold Parser.isEOF
  rw [bind_run (run_next h.good), bind_run (m := Lexer.isEOF) (l' := nextSt {} l) (a := false) ?_,
    bind_run (unNext_nextSt {} l)]
  · rfl
  · show Res.ok _ _ = _
    rw [h.next.1]; rfl

theorem eats_proto : Eats (protoLoop ⟨false, b, n⟩) [.emptyStatement {}] .nil where
  zero _ := rfl
  kind := .inr ⟨rfl, rfl⟩
  step k vs r p l h := by
    obtain ⟨cs, l1, e1, h1⟩ := comments_semi h
    obtain ⟨l2, e2, h2⟩ := eof_semi h1
    obtain ⟨l3, e3, h3⟩ := keyword_semi h2
    refine ⟨l3, h3, ?_⟩
    conv => lhs; unfold protoLoop
    rw [bind_run e1, bind_run e2, if_neg (by simp), bind_run e3]
    have : protoStmt ⟨false, b, n⟩ cs .semicolon l3 = .ok ([.emptyStatement {}], .nil) (nextSt {} l3) := by
      unfold protoStmt
      show (readEmptyStatement >>= fun _ => _) l3 = _
      rw [bind_run (empty_semi h3)]
      rfl
    exact bind_run this

theorem asim_protoLoop (hn : n ≤ n') : ∀ k k' : Nat, k ≤ k' → ∀ vs vs' : List Visitee, RelaxedB vs vs' →
    ASim Near (Both RelaxedB Full) W (protoLoop ⟨false, b, n⟩ k vs) (protoLoop ⟨true, b, n'⟩ k' vs') := by
  intro k
  induction k using Nat.strongRecOn with
  | ind k ih =>
    intro k' hk vs vs' hv
    cases k with
    | zero => exact ASim.stop
    | succ k =>
      obtain ⟨k', rfl⟩ : ∃ j, k' = j + 1 := ⟨k' - 1, by omega⟩
      unfold protoLoop
      refine asim_comments.bind fun cs _ e => ?_
      subst e
      refine asim_isEOF.ofF.bind fun t _ e => ?_
      subst e
      refine ASim.ite (ASim.same (relaxed_append hv (relaxed_comments b n n' cs)) fun _ _ h => h) ?_
      refine asim_peekKeyword.ofF.bind fun t _ e => ?_
      subst e
      refine (asim_protoStmt hn cs t).bindQ (W := Never) (fun x y => ?_) (fun _ => run_never)
      obtain ⟨x1, x2⟩ := x
      obtain ⟨y1, y2⟩ := y
      refine ⟨fun l l' h => ?_⟩
      rcases h with ⟨h1, h2, h⟩ | ⟨h1, h2, h3, h4, h⟩
      · simp only at h1 h2
        subst h1 h2
        simp only [List.append_nil]
        exact (asim_ended eats_proto (fun j hj vs vs' hv => ih j (by omega) k' (by omega) vs vs' hv) x2 y2 hv).run l l' h
      · simp only at h1 h2 h3 h4
        subst h1 h2 h3 h4
        refine (ASim.bind ((asim_maybeScan .nil).pre fun _ _ h => Full.nearLine h) fun x y hxy => ?_).run l l' h
        refine (ih k (by omega) k' (by omega) _ _ ?_).ofF
        exact relaxed_append (relaxed_append hv (.cons (.emptyStatement _) .nil)) (.cons hxy .nil)

theorem asim_syntaxPart (cs : List Comment) : ASim Near (Both Eq Full) W (syntaxPart cs) (syntaxPart cs) := by
  unfold syntaxPart
  refine asim_syntax.bind fun x _ e => ?_
  subst e
  cases x with
  | none => exact ASim.same rfl fun _ _ h => h
  | some s => simp only; asim

theorem asim_editionPart (cs : List Comment) : ASim Near (Both Eq Full) W (editionPart cs) (editionPart cs) := by
  unfold editionPart
  refine asim_edition.bind fun x _ e => ?_
  subst e
  cases x with
  | none => exact ASim.same rfl fun _ _ h => h
  | some s => simp only; asim

theorem asim_parseProto (hn : n ≤ n') :
    ASim Near (Both Relaxed Full) W (parseProto ⟨false, b, n⟩) (parseProto ⟨true, b, n'⟩) := by
  unfold parseProto parseProtoBody
  refine asim_bom.bind fun _ _ _ => ?_
  refine asim_comments.ofF.bind fun cs _ e => ?_
  subst e
  refine (asim_syntaxPart cs).ofF.bind fun s _ e => ?_
  subst e
  refine (asim_editionPart cs).ofF.bind fun s _ e => ?_
  subst e
  refine (asim_protoLoop hn _ _ hn _ _ .nil).ofF.bind fun vs vs' hv => ?_
  refine asim_position.bind fun p _ e => ?_
  subst e
  exact ASim.same ⟨rfl, rfl, hv, rfl⟩ fun _ _ h => h

end Verif
