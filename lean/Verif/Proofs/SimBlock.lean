import Verif.Proofs.SimParse

set_option backward.isDefEq.respectTransparency false
set_option backward.dsimp.instances true

/-!
# Two runs of the parser side by side: blocks and files
-/

namespace Verif.Parser

open Verif Spec Lexer

variable {ρ : Link} {p b b' : Bool} {n n' : Nat} {skip : Coms}

/-! ## Oneofs, reserved, extensions -/

/-- Two elements of the same side. -/
inductive RSum {α β : Type} (R : α → α → Prop) (Q : β → β → Prop) : Sum α β → Sum α β → Prop
  | inl {a b : α} : R a b → RSum R Q (.inl a) (.inl b)
  | inr {a b : β} : Q a b → RSum R Q (.inr a) (.inr b)

theorem sim_oneofElement {cs cs' : List Comment} (h : RCs ρ cs cs') :
    SimP ρ (RSum (AlikeOption ρ.at) (AlikeOneofField ρ.at)) (parseOneofElement ⟨p, b, n⟩ cs) (parseOneofElement ⟨p, b', n'⟩ cs') := by
  unfold parseOneofElement
  refine sim_peekKeyword.bind fun t _ e => ?_
  subst e
  refine Sim.ite (sim_option.bind fun x y hxy => ?_) (sim_oneofField.bind fun x y hxy => ?_)
  · exact sim_inline.bind fun c d hcd => Sim.pure (.inl { hxy with comments := h, inlineComment := hcd })
  · exact sim_inline.bind fun c d hcd => Sim.pure (.inr { hxy with comments := h, inlineComment := hcd })

theorem sim_oneofLoop (k : Nat) {fs fs' : List OneofField} {os os' : List OptionStmt}
    (hf : AlikeList (AlikeOneofField ρ.at) fs fs') (ho : AlikeList (AlikeOption ρ.at) os os') :
    SimP ρ (RPair (AlikeList (AlikeOneofField ρ.at)) (AlikeList (AlikeOption ρ.at)))
      (oneofLoop ⟨p, b, n⟩ k fs os) (oneofLoop ⟨p, b', n'⟩ k fs' os') := by
  induction k generalizing fs fs' os os' with
  | zero => exact Sim.fuel
  | succ k ih =>
    unfold oneofLoop
    refine sim_parseComments.bind fun cs cs' hc => ?_
    refine (Sim.attempt sim_readEmptyStatement).bind fun a b hab => ?_
    cases hab with
    | ok _ => exact ih hf ho
    | error _ =>
      refine (sim_oneofElement hc).bind fun x y hxy => ?_
      cases hxy with
      | inl hxy =>
        refine sim_next.bind fun _ _ _ => ?_
        refine sim_tok.bind fun t _ e => ?_
        subst e
        exact Sim.ite (Sim.pure (.mk hf (alike_snoc ho hxy)))
          (sim_unNext.bind fun _ _ _ => ih hf (alike_snoc ho hxy))
      | inr hxy =>
        refine sim_next.bind fun _ _ _ => ?_
        refine sim_tok.bind fun t _ e => ?_
        subst e
        exact Sim.ite (Sim.pure (.mk (alike_snoc hf hxy) ho))
          (sim_unNext.bind fun _ _ _ => ih (alike_snoc hf hxy) ho)

theorem sim_oneof : SimP ρ (AlikeOneof ρ.at) (parseOneof ⟨p, b, n⟩) (parseOneof ⟨p, b', n'⟩) := by
  unfold parseOneof
  refine (sim_expect _ _ (sim_nextWith _)).bind fun _ _ _ => ?_
  refine sim_position.bind fun s s' hs => ?_
  refine (sim_expect _ _ sim_next).bind fun _ _ _ => ?_
  refine sim_txt.bind fun _ _ e => ?_
  subst e
  refine (sim_expect _ _ sim_next).bind fun _ _ _ => ?_
  refine sim_inline.bind fun c d hcd => ?_
  refine sim_bound.bind fun _ _ e => ?_
  subst e
  refine (sim_oneofLoop _ .nil .nil).bind fun x y hxy => ?_
  cases hxy with
  | mk hf ho =>
    refine sim_blockLastPos.bind fun t t' ht => ?_
    exact Sim.pure ⟨hf, rfl, ho, .nil, .none, hcd, ⟨Link.at_of hs, Link.at_of ht⟩⟩

theorem sim_range : SimP ρ Eq parseRange parseRange := by unfold parseRange; sim
macro_rules | `(tactic| simlem) => `(tactic| exact sim_range)

theorem sim_rangesLoop (k : Nat) (rs : List Range) : SimP ρ Eq (rangesLoop k rs) (rangesLoop k rs) := by
  induction k generalizing rs with
  | zero => exact Sim.fuel
  | succ k ih => unfold rangesLoop; sim; all_goals exact ih _
macro_rules | `(tactic| simlem) => `(tactic| exact sim_rangesLoop _ _)

theorem sim_ranges : SimP ρ Eq parseRanges parseRanges := by unfold parseRanges; sim
macro_rules | `(tactic| simlem) => `(tactic| exact sim_ranges)

theorem sim_quotedFieldName : SimP ρ Eq parseQuotedFieldName parseQuotedFieldName := by
  unfold parseQuotedFieldName; sim
macro_rules | `(tactic| simlem) => `(tactic| exact sim_quotedFieldName)

theorem sim_fieldName : SimP ρ Eq parseFieldName parseFieldName := by
  unfold parseFieldName
  refine (Sim.attempt sim_quotedFieldName).bind fun x y h => ?_
  cases h with
  | ok e => subst e; exact Sim.pure rfl
  | error _ => sim
macro_rules | `(tactic| simlem) => `(tactic| exact sim_fieldName)

theorem sim_fieldNamesLoop (k : Nat) (fs : List Str) :
    SimP ρ Eq (fieldNamesLoop k fs) (fieldNamesLoop k fs) := by
  induction k generalizing fs with
  | zero => exact Sim.fuel
  | succ k ih =>
    unfold fieldNamesLoop
    sim
    all_goals exact ih _
macro_rules | `(tactic| simlem) => `(tactic| exact sim_fieldNamesLoop _ _)

theorem sim_fieldNames : SimP ρ Eq parseFieldNames parseFieldNames := by unfold parseFieldNames; sim
macro_rules | `(tactic| simlem) => `(tactic| exact sim_fieldNames)

theorem sim_reservedBody : SimP ρ Eq parseReservedBody parseReservedBody := by
  unfold parseReservedBody
  refine (Sim.attempt sim_ranges).bind fun x y h => ?_
  cases h with
  | ok e => subst e; exact Sim.pure rfl
  | error h1 =>
    refine (Sim.attempt sim_fieldNames).bind fun x y h => ?_
    cases h with
    | ok e => subst e; exact Sim.pure rfl
    | error h2 => exact Sim.throw (.pair h1 h2)

theorem sim_reserved : SimP ρ (AlikeReserved ρ.at) parseReserved parseReserved := by
  unfold parseReserved
  refine (sim_expect _ _ (sim_nextWith _)).bind fun _ _ _ => ?_
  refine sim_position.bind fun s s' hs => ?_
  refine sim_reservedBody.bind fun x _ e => ?_
  subst e
  sim
macro_rules | `(tactic| simlem) => `(tactic| exact sim_reserved)

theorem sim_declItem (a : DeclAcc) : SimP ρ Eq (parseDeclItem a) (parseDeclItem a) := by
  unfold parseDeclItem; sim
macro_rules | `(tactic| simlem) => `(tactic| exact sim_declItem _)

theorem sim_declLoop (k : Nat) (a : DeclAcc) : SimP ρ Eq (declLoop k a) (declLoop k a) := by
  induction k generalizing a with
  | zero => exact Sim.fuel
  | succ k ih => unfold declLoop; sim; all_goals exact ih _
macro_rules | `(tactic| simlem) => `(tactic| exact sim_declLoop _ _)

theorem sim_declaration : SimP ρ (AlikeDeclaration ρ.at) parseDeclaration parseDeclaration := by
  unfold parseDeclaration
  refine (sim_expect _ _ (sim_nextWith _)).bind fun _ _ _ => ?_
  refine sim_position.bind fun s s' hs => ?_
  refine (sim_expect _ _ sim_next).bind fun _ _ _ => ?_
  refine (sim_expect _ _ sim_next).bind fun _ _ _ => ?_
  refine sim_inline.bind fun c d hcd => ?_
  sim

theorem alike_assign {d d' : Declaration} {c1 c1' c2 c2' : Option Comment} (h : AlikeDeclaration ρ.at d d')
    (h1 : RCo ρ c1 c1') (h2 : RCo ρ c2 c2') :
    AlikeDeclaration ρ.at (assignInlineComments d c1 c2) (assignInlineComments d' c1' c2') := by
  cases h1 with
  | none =>
    cases h2 with
    | none => exact h
    | some h2 => exact { h with inlineComment := .some h2 }
  | some h1 =>
    cases h2 with
    | none => exact { h with inlineComment := .some h1 }
    | some h2 => exact { h with inlineComment := .some h2 }

theorem sim_declarationsLoop (k : Nat) {ds ds' : List Declaration}
    (h : AlikeList (AlikeDeclaration ρ.at) ds ds') :
    SimP ρ (AlikeList (AlikeDeclaration ρ.at)) (declarationsLoop k ds) (declarationsLoop k ds') := by
  induction k generalizing ds ds' with
  | zero => exact Sim.fuel
  | succ k ih =>
    unfold declarationsLoop
    refine sim_parseComments.bind fun cs cs' hc => ?_
    refine sim_declaration.bind fun d d' hd => ?_
    refine sim_next.bind fun _ _ _ => ?_
    refine sim_tok.bind fun t _ e => ?_
    subst e
    refine sim_inline.bind fun i i' hi => ?_
    have hd' : AlikeDeclaration ρ.at { d with comments := cs } { d' with comments := cs' } :=
      { hd with comments := hc }
    refine Sim.ite ?_ (Sim.ite (sim_perr _) ?_)
    · exact sim_inline.bind fun j j' hj => Sim.pure (alike_snoc h (alike_assign hd' hi hj))
    · exact sim_inline.bind fun j j' hj => ih (alike_snoc h (alike_assign hd' hi hj))

theorem sim_declarations :
    SimP ρ (RPair (AlikeList (AlikeDeclaration ρ.at)) (RCo ρ)) parseDeclarations parseDeclarations := by
  unfold parseDeclarations
  refine sim_next.bind fun _ _ _ => ?_
  refine sim_tok.bind fun t _ e => ?_
  subst e
  refine Sim.ite (sim_unNext.bind fun _ _ _ => Sim.pure (.mk .nil .none)) ?_
  refine sim_inline.bind fun i i' hi => ?_
  refine sim_bound.bind fun _ _ e => ?_
  subst e
  exact (sim_declarationsLoop _ .nil).bind fun _ _ hd => Sim.pure (.mk hd hi)

theorem sim_extensions : SimP ρ (AlikeExtensions ρ.at) parseExtensions parseExtensions := by
  unfold parseExtensions
  refine (sim_expect _ _ (sim_nextWith _)).bind fun _ _ _ => ?_
  refine sim_position.bind fun s s' hs => ?_
  refine sim_ranges.bind fun _ _ e => ?_
  subst e
  refine sim_declarations.bind fun _ _ h => ?_
  cases h with
  | mk hd hi => sim

/-! ## Bodies -/

/-- The relation between what two body parsers return. -/
abbrev RBody (ρ : Link) (skip : Coms) : Body → Body → Prop := RPair (AlikeB ρ.at skip) (RPair (RCo ρ) ρ.pos)

theorem alikeB_append {as bs as' bs' : List Visitee} : AlikeB ρ.at skip as bs → AlikeB ρ.at skip as' bs' →
    AlikeB ρ.at skip (as ++ as') (bs ++ bs')
  | .nil, h' => h'
  | .cons h t, h' => .cons h (alikeB_append t h')
  | .left hs t, h' => .left hs (alikeB_append t h')
  | .right hs t, h' => .right hs (alikeB_append t h')

theorem alikeB_left (hs : skip = .either) (cs : List Comment) : AlikeB ρ.at skip (cs.map .comment) [] := by
  induction cs with
  | nil => exact .nil
  | cons c cs ih => exact .left hs ih

theorem alikeB_right (hs : skip = .either) (cs : List Comment) : AlikeB ρ.at skip [] (cs.map .comment) := by
  induction cs with
  | nil => exact .nil
  | cons c cs ih => exact .right hs ih

theorem alikeB_comments {cs cs' : List Comment} (hs : skip ≠ .none) (h : RCs ρ cs cs') :
    AlikeB ρ.at skip (cs.map .comment) (cs'.map .comment) := by
  induction h with
  | nil => exact .nil
  | cons h _ ih => exact .cons (.comment hs h) ih

variable (hb : (b = b' ∧ (b = true → skip ≠ .none)) ∨ skip = .either)

include hb in
theorem alike_bodyComments {cs cs' : List Comment} (h : RCs ρ cs cs') :
    AlikeB ρ.at skip (bodyComments ⟨p, b, n⟩ cs) (bodyComments ⟨p, b', n'⟩ cs') := by
  cases b <;> cases b' <;> simp only [bodyComments, if_true, if_false, Bool.false_eq_true]
  · exact .nil
  · exact alikeB_right (hb.resolve_left (by simp)) _
  · exact alikeB_left (hb.resolve_left (by simp)) _
  · exact alikeB_comments (hb.elim (fun h => h.2 rfl) (fun h => by rw [h]; simp)) h

include hb in
theorem sim_closeBody {cs cs' : List Comment} {vs vs' : List Visitee} {i i' : Option Comment}
    (hc : RCs ρ cs cs') (hv : AlikeB ρ.at skip vs vs') (hi : RCo ρ i i') :
    SimP ρ (RBody ρ skip) (closeBody ⟨p, b, n⟩ cs vs i) (closeBody ⟨p, b', n'⟩ cs' vs' i') := by
  unfold closeBody
  refine sim_next.bind fun _ _ _ => ?_
  exact sim_blockLastPos.bind fun _ _ hp =>
    Sim.pure (.mk (alikeB_append hv (alike_bodyComments hb hc)) (.mk hi hp))

theorem sim_recover {e e' : Err} (h : AlikeErr ρ.at e e') :
    SimP ρ (AlikeV ρ.at skip) (recoverEmpty e) (recoverEmpty e') := by
  unfold recoverEmpty
  refine sim_unNext.bind fun _ _ _ => ?_
  refine (Sim.attempt sim_readEmptyStatement).bind fun x y hxy => ?_
  cases hxy with
  | ok _ => exact Sim.pure (.emptyStatement ⟨.none⟩)
  | error h' => exact Sim.throw (.pair h h')

theorem alikeB_snoc {as bs : List Visitee} {v v' : Visitee} (h : AlikeB ρ.at skip as bs)
    (hv : AlikeV ρ.at skip v v') : AlikeB ρ.at skip (as ++ [v]) (bs ++ [v']) :=
  alikeB_append h (.cons hv .nil)

theorem sim_enumValueOptions :
    SimP ρ Eq (parseEnumValueOptions ⟨p, b, n⟩) (parseEnumValueOptions ⟨p, b', n'⟩) := by
  unfold parseEnumValueOptions; sim
macro_rules | `(tactic| simlem) => `(tactic| exact sim_enumValueOptions)

theorem sim_sign : SimP ρ Eq parseSign parseSign := by unfold parseSign; sim
macro_rules | `(tactic| simlem) => `(tactic| exact sim_sign)

theorem sim_enumField : SimP ρ (AlikeEnumField ρ.at) (parseEnumField ⟨p, b, n⟩) (parseEnumField ⟨p, b', n'⟩) := by
  unfold parseEnumField; sim

theorem sim_optionStmt {cs cs' : List Comment} (h : RCs ρ cs cs') :
    SimP ρ (AlikeV ρ.at skip) (do let x ← parseOption ⟨p, b, n⟩; return .option { x with comments := cs })
      (do let x ← parseOption ⟨p, b', n'⟩; return .option { x with comments := cs' }) :=
  sim_option.bind fun _ _ hx => Sim.pure (.option { hx with comments := h })

theorem sim_reservedStmt {cs cs' : List Comment} (h : RCs ρ cs cs') :
    SimP ρ (AlikeV ρ.at skip) (do let x ← parseReserved; return .reserved { x with comments := cs })
      (do let x ← parseReserved; return .reserved { x with comments := cs' }) :=
  sim_reserved.bind fun _ _ hx => Sim.pure (.reserved { hx with comments := h })

theorem sim_enumStmt {cs cs' : List Comment} (h : RCs ρ cs cs') (t : Token) :
    SimP ρ (AlikeV ρ.at skip) (enumStmt ⟨p, b, n⟩ cs t) (enumStmt ⟨p, b', n'⟩ cs' t) := by
  unfold enumStmt
  refine Sim.ite (sim_optionStmt h) (Sim.ite (sim_reservedStmt h) ?_)
  refine (Sim.attempt sim_enumField).bind fun x y hxy => ?_
  cases hxy with
  | ok hx => exact Sim.pure (.enumField { hx with comments := h })
  | error he => exact sim_recover he

include hb in
theorem sim_enumLoop (k : Nat) {vs vs' : List Visitee} {i i' : Option Comment}
    (hv : AlikeB ρ.at skip vs vs') (hi : RCo ρ i i') :
    SimP ρ (RBody ρ skip) (enumLoop ⟨p, b, n⟩ i k vs) (enumLoop ⟨p, b', n'⟩ i' k vs') := by
  induction k generalizing vs vs' with
  | zero => exact Sim.fuel
  | succ k ih =>
    unfold enumLoop
    refine sim_parseComments.bind fun cs cs' hc => ?_
    refine sim_peekKeyword.bind fun t _ e => ?_
    subst e
    refine Sim.ite (sim_closeBody hb hc hv hi) ?_
    refine (sim_enumStmt (skip := skip) hc t).bind fun x y hxy => ?_
    exact (sim_maybeScan hxy).bind fun x y hxy => ih (alikeB_snoc hv hxy)

include hb in
theorem sim_enumBody : SimP ρ (RBody ρ skip) (parseEnumBody ⟨p, b, n⟩) (parseEnumBody ⟨p, b', n'⟩) := by
  unfold parseEnumBody
  refine (sim_expect _ _ sim_next).bind fun _ _ _ => ?_
  refine sim_inline.bind fun i i' hi => ?_
  refine sim_bound.bind fun _ _ e => ?_
  subst e
  exact sim_enumLoop hb _ .nil hi

include hb in
theorem sim_enum : SimP ρ (fun x y => AlikeEnum ρ.at x y ∧ AlikeB ρ.at skip x.enumBody y.enumBody)
    (parseEnum ⟨p, b, n⟩) (parseEnum ⟨p, b', n'⟩) := by
  unfold parseEnum
  refine (sim_expect _ _ (sim_nextWith _)).bind fun _ _ _ => ?_
  refine sim_position.bind fun s s' hs => ?_
  refine (sim_expect _ _ sim_next).bind fun _ _ _ => ?_
  refine sim_txt.bind fun _ _ e => ?_
  subst e
  refine (sim_enumBody hb).bind fun x y hxy => ?_
  obtain ⟨h1, ⟨h2, h3⟩⟩ := hxy
  exact Sim.pure ⟨⟨rfl, .nil, .none, h2, ⟨Link.at_of hs, Link.at_of h3⟩⟩, h1⟩

include hb in
theorem sim_enumS {cs cs' : List Comment} (h : RCs ρ cs cs') :
    SimP ρ (AlikeV ρ.at skip) (do let x ← parseEnum ⟨p, b, n⟩; return .enum { x with comments := cs })
      (do let x ← parseEnum ⟨p, b', n'⟩; return .enum { x with comments := cs' }) :=
  (sim_enum hb).bind fun _ _ hx => Sim.pure (.enum { hx.1 with comments := h } hx.2)

/-! ## Extends -/

theorem sim_extendStmt {cs cs' : List Comment} (h : RCs ρ cs cs') :
    SimP ρ (AlikeV ρ.at skip) (extendStmt ⟨p, b, n⟩ cs) (extendStmt ⟨p, b', n'⟩ cs') := by
  unfold extendStmt
  refine (Sim.attempt sim_field).bind fun x y hxy => ?_
  cases hxy with
  | ok hx => exact Sim.pure (.field { hx with comments := h })
  | error he => exact sim_recover he

include hb in
theorem sim_extendLoop (k : Nat) {vs vs' : List Visitee} {i i' : Option Comment}
    (hv : AlikeB ρ.at skip vs vs') (hi : RCo ρ i i') :
    SimP ρ (RBody ρ skip) (extendLoop ⟨p, b, n⟩ i k vs) (extendLoop ⟨p, b', n'⟩ i' k vs') := by
  induction k generalizing vs vs' with
  | zero => exact Sim.fuel
  | succ k ih =>
    unfold extendLoop
    refine sim_parseComments.bind fun cs cs' hc => ?_
    refine sim_peekKeyword.bind fun t _ e => ?_
    subst e
    refine Sim.ite (sim_closeBody hb hc hv hi) ?_
    refine (sim_extendStmt (skip := skip) hc).bind fun x y hxy => ?_
    exact (sim_maybeScan hxy).bind fun x y hxy => ih (alikeB_snoc hv hxy)

include hb in
theorem sim_extendBody : SimP ρ (RBody ρ skip) (parseExtendBody ⟨p, b, n⟩) (parseExtendBody ⟨p, b', n'⟩) := by
  unfold parseExtendBody
  refine (sim_expect _ _ sim_next).bind fun _ _ _ => ?_
  refine sim_inline.bind fun i i' hi => ?_
  refine sim_next.bind fun _ _ _ => ?_
  refine sim_tok.bind fun t _ e => ?_
  subst e
  refine Sim.ite (sim_blockLastPos.bind fun _ _ hp => Sim.pure (.mk .nil (.mk .none hp))) ?_
  refine sim_unNext.bind fun _ _ _ => ?_
  refine sim_bound.bind fun _ _ e => ?_
  subst e
  exact sim_extendLoop hb _ .nil hi

include hb in
theorem sim_extend : SimP ρ (fun x y => AlikeExtend ρ.at x y ∧ AlikeB ρ.at skip x.extendBody y.extendBody)
    (parseExtend ⟨p, b, n⟩) (parseExtend ⟨p, b', n'⟩) := by
  unfold parseExtend
  refine (sim_expect _ _ (sim_nextWith _)).bind fun _ _ _ => ?_
  refine sim_position.bind fun s s' hs => ?_
  refine sim_readMessageType.bind fun x y hxy => ?_
  obtain ⟨e, _⟩ := hxy
  subst e
  refine (sim_extendBody hb).bind fun x y hxy => ?_
  obtain ⟨h1, ⟨h2, h3⟩⟩ := hxy
  exact Sim.pure ⟨⟨rfl, .nil, .none, h2, ⟨Link.at_of hs, Link.at_of h3⟩⟩, h1⟩

include hb in
theorem sim_extendS {cs cs' : List Comment} (h : RCs ρ cs cs') :
    SimP ρ (AlikeV ρ.at skip) (do let x ← parseExtend ⟨p, b, n⟩; return .extend { x with comments := cs })
      (do let x ← parseExtend ⟨p, b', n'⟩; return .extend { x with comments := cs' }) :=
  (sim_extend hb).bind fun _ _ hx => Sim.pure (.extend { hx.1 with comments := h } hx.2)

/-! ## Groups and messages -/

theorem sim_rawText' : SimP ρ Eq rawText rawText := by
  intro l l' h
  exact ⟨h.rawText, h⟩
macro_rules | `(tactic| simlem) => `(tactic| exact sim_rawText')

theorem sim_groupCurly : SimP ρ Eq peekGroupCurly peekGroupCurly := by unfold peekGroupCurly; sim
macro_rules | `(tactic| simlem) => `(tactic| exact sim_groupCurly)

theorem sim_groupNumber : SimP ρ Eq peekGroupNumber peekGroupNumber := by
  unfold peekGroupNumber
  refine (Sim.attempt sim_number).bind fun x y h => ?_
  refine sim_rawText'.bind fun r _ e => ?_
  subst e
  cases h with
  | ok _ => sim
  | error _ => sim
macro_rules | `(tactic| simlem) => `(tactic| exact sim_groupNumber)

theorem sim_groupEquals : SimP ρ Eq peekGroupEquals peekGroupEquals := by unfold peekGroupEquals; sim
macro_rules | `(tactic| simlem) => `(tactic| exact sim_groupEquals)

theorem sim_groupName : SimP ρ Eq peekGroupName peekGroupName := by unfold peekGroupName; sim
macro_rules | `(tactic| simlem) => `(tactic| exact sim_groupName)

theorem sim_groupKeyword : SimP ρ Eq peekGroupKeyword peekGroupKeyword := by unfold peekGroupKeyword; sim
macro_rules | `(tactic| simlem) => `(tactic| exact sim_groupKeyword)

theorem sim_isGroup : SimP ρ Eq peekIsGroup peekIsGroup := by unfold peekIsGroup; sim

variable {body body' : P Body}

theorem sim_group (h : SimP ρ (RBody ρ skip) body body') :
    SimP ρ (fun x y => AlikeGroupField ρ.at x y ∧ AlikeB ρ.at skip x.messageBody y.messageBody)
      (parseGroupFieldWith body) (parseGroupFieldWith body') := by
  unfold parseGroupFieldWith
  refine (sim_nextWith _).bind fun _ _ _ => ?_
  refine sim_position.bind fun s s' hs => ?_
  refine sim_label.bind fun _ _ e => ?_
  subst e
  refine (sim_expect _ _ (sim_nextWith _)).bind fun _ _ _ => ?_
  refine (sim_expect _ _ sim_next).bind fun _ _ _ => ?_
  refine sim_txt.bind fun _ _ e => ?_
  subst e
  refine Sim.ite (sim_perr _) ?_
  refine (sim_expect _ _ sim_next).bind fun _ _ _ => ?_
  refine (sim_orUnexpected _ sim_number).bind fun _ _ e => ?_
  subst e
  refine h.bind fun x y hxy => ?_
  obtain ⟨h1, ⟨h2, h3⟩⟩ := hxy
  exact Sim.pure ⟨⟨rfl, rfl, rfl, rfl, rfl, .nil, .none, h2, ⟨Link.at_of hs, Link.at_of h3⟩⟩, h1⟩

theorem sim_messageWith (h : SimP ρ (RBody ρ skip) body body') :
    SimP ρ (fun x y => AlikeMessage ρ.at x y ∧ AlikeB ρ.at skip x.messageBody y.messageBody)
      (parseMessageWith body) (parseMessageWith body') := by
  unfold parseMessageWith
  refine (sim_expect _ _ (sim_nextWith _)).bind fun _ _ _ => ?_
  refine sim_position.bind fun s s' hs => ?_
  refine (sim_expect _ _ sim_next).bind fun _ _ _ => ?_
  refine sim_txt.bind fun _ _ e => ?_
  subst e
  refine h.bind fun x y hxy => ?_
  obtain ⟨h1, ⟨h2, h3⟩⟩ := hxy
  exact Sim.pure ⟨⟨rfl, .nil, .none, h2, ⟨Link.at_of hs, Link.at_of h3⟩⟩, h1⟩

theorem sim_fieldStmt (h : SimP ρ (RBody ρ skip) body body') {cs cs' : List Comment} (hc : RCs ρ cs cs') :
    SimP ρ (AlikeV ρ.at skip) (fieldStmt ⟨p, b, n⟩ body cs) (fieldStmt ⟨p, b', n'⟩ body' cs') := by
  unfold fieldStmt
  refine sim_isGroup.bind fun g _ e => ?_
  subst e
  refine Sim.ite ?_ ?_
  · refine (Sim.attempt (sim_group h)).bind fun x y hxy => ?_
    cases hxy with
    | ok hx => exact Sim.pure (.groupField { hx.1 with comments := hc } hx.2)
    | error he => exact sim_recover he
  · refine (Sim.attempt sim_field).bind fun x y hxy => ?_
    cases hxy with
    | ok hx => exact Sim.pure (.field { hx with comments := hc })
    | error he => exact sim_recover he

include hb in
theorem sim_messageStmt (h : SimP ρ (RBody ρ skip) body body') {cs cs' : List Comment} (hc : RCs ρ cs cs')
    (t : Token) :
    SimP ρ (AlikeV ρ.at skip) (messageStmt ⟨p, b, n⟩ body cs t) (messageStmt ⟨p, b', n'⟩ body' cs' t) := by
  unfold messageStmt
  split
  · exact sim_enumS hb hc
  · exact (sim_messageWith h).bind fun _ _ hx => Sim.pure (.message { hx.1 with comments := hc } hx.2)
  · exact sim_optionStmt hc
  · exact sim_oneof.bind fun _ _ hx => Sim.pure (.oneof { hx with comments := hc })
  · exact sim_mapField.bind fun _ _ hx => Sim.pure (.mapField { hx with comments := hc })
  · exact sim_extendS hb hc
  · exact sim_reservedStmt hc
  · exact sim_extensions.bind fun _ _ hx => Sim.pure (.extensions { hx with comments := hc })
  · exact sim_fieldStmt h hc

include hb in
theorem sim_messageLoop (h : SimP ρ (RBody ρ skip) body body') {k k' : Nat} (hk : k ≤ k')
    {vs vs' : List Visitee} {i i' : Option Comment} (hv : AlikeB ρ.at skip vs vs') (hi : RCo ρ i i') :
    SimP ρ (RBody ρ skip) (messageLoop ⟨p, b, n⟩ body i k vs) (messageLoop ⟨p, b', n'⟩ body' i' k' vs') := by
  induction k generalizing k' vs vs' with
  | zero => exact Sim.fuel
  | succ k ih =>
    obtain ⟨k', rfl⟩ : ∃ j, k' = j + 1 := ⟨k' - 1, by omega⟩
    unfold messageLoop
    refine sim_parseComments.bind fun cs cs' hc => ?_
    refine sim_peekKeyword.bind fun t _ e => ?_
    subst e
    refine Sim.ite (sim_closeBody hb hc hv hi) ?_
    refine (sim_messageStmt hb h hc t).bind fun x y hxy => ?_
    exact (sim_maybeScan hxy).bind fun x y hxy => ih (by omega) (alikeB_snoc hv hxy)

variable (hn : n ≤ n')

include hb hn in
theorem sim_messageBodyWith (h : SimP ρ (RBody ρ skip) body body') :
    SimP ρ (RBody ρ skip) (messageBodyWith ⟨p, b, n⟩ body) (messageBodyWith ⟨p, b', n'⟩ body') := by
  unfold messageBodyWith
  refine (sim_expect _ _ sim_next).bind fun _ _ _ => ?_
  refine sim_inline.bind fun i i' hi => ?_
  refine sim_next.bind fun _ _ _ => ?_
  refine sim_tok.bind fun t _ e => ?_
  subst e
  refine Sim.ite (sim_blockLastPos.bind fun _ _ hp => Sim.pure (.mk .nil (.mk .none hp))) ?_
  refine sim_unNext.bind fun _ _ _ => ?_
  exact sim_messageLoop hb h hn .nil hi

include hb hn in
theorem sim_messageBody {d d' : Nat} (hd : d ≤ d') :
    SimP ρ (RBody ρ skip) (messageBody ⟨p, b, n⟩ d) (messageBody ⟨p, b', n'⟩ d') := by
  induction d generalizing d' with
  | zero => exact Sim.fuel
  | succ d ih =>
    obtain ⟨d', rfl⟩ : ∃ j, d' = j + 1 := ⟨d' - 1, by omega⟩
    unfold messageBody
    exact sim_messageBodyWith hb hn (ih (by omega))

/-! ## Services -/

theorem sim_rpcMessage : SimP ρ (AlikeRPCMessage ρ.at) parseRPCMessage parseRPCMessage := by
  unfold parseRPCMessage; sim

theorem sim_rpcOptionsStmt :
    SimP ρ (AlikeList (AlikeOption ρ.at)) (rpcOptionsStmt ⟨p, b, n⟩) (rpcOptionsStmt ⟨p, b', n'⟩) := by
  unfold rpcOptionsStmt
  refine sim_peekKeyword.bind fun t _ e => ?_
  subst e
  refine Sim.ite (sim_option.bind fun _ _ h => Sim.pure (.cons h .nil)) (Sim.ite (Sim.pure .nil) ?_)
  exact sim_readEmptyStatement.bind fun _ _ _ => Sim.pure .nil

theorem alike_append {α : Type} {R : α → α → Prop} {as bs as' bs' : List α} (h : AlikeList R as bs)
    (h' : AlikeList R as' bs') : AlikeList R (as ++ as') (bs ++ bs') := by
  induction h with
  | nil => exact h'
  | cons h _ ih => exact .cons h ih

theorem sim_rpcOptionsLoop (k : Nat) {os os' : List OptionStmt} (h : AlikeList (AlikeOption ρ.at) os os') :
    SimP ρ (AlikeList (AlikeOption ρ.at)) (rpcOptionsLoop ⟨p, b, n⟩ k os) (rpcOptionsLoop ⟨p, b', n'⟩ k os') := by
  induction k generalizing os os' with
  | zero => exact Sim.fuel
  | succ k ih =>
    unfold rpcOptionsLoop
    refine sim_rpcOptionsStmt.bind fun x y hxy => ?_
    refine sim_next.bind fun _ _ _ => ?_
    refine sim_tok.bind fun t _ e => ?_
    subst e
    exact Sim.ite (Sim.pure (alike_append h hxy)) (sim_unNext.bind fun _ _ _ => ih (alike_append h hxy))

theorem sim_rpcOptions : SimP ρ (RPair (AlikeList (AlikeOption ρ.at)) (RCo ρ)) (parseRPCOptions ⟨p, b, n⟩)
    (parseRPCOptions ⟨p, b', n'⟩) := by
  unfold parseRPCOptions
  refine (sim_expect _ _ sim_next).bind fun _ _ _ => ?_
  refine sim_inline.bind fun i i' hi => ?_
  refine sim_bound.bind fun _ _ e => ?_
  subst e
  exact (sim_rpcOptionsLoop _ .nil).bind fun _ _ h => Sim.pure (.mk h hi)

theorem sim_rpc (kp : ρ.keep) : SimP ρ (AlikeRPC ρ.at) (parseRPC ⟨p, b, n⟩) (parseRPC ⟨p, b', n'⟩) := by
  unfold parseRPC
  refine (sim_expect _ _ (sim_nextWith _)).bind fun _ _ _ => ?_
  refine sim_position.bind fun s s' hs => ?_
  refine (sim_expect _ _ sim_next).bind fun _ _ _ => ?_
  refine sim_txt.bind fun _ _ e => ?_
  subst e
  refine sim_rpcMessage.bind fun x x' hx => ?_
  refine (sim_expect _ _ (sim_nextWith _)).bind fun _ _ _ => ?_
  refine sim_rpcMessage.bind fun y y' hy => ?_
  refine sim_next.bind fun _ _ _ => ?_
  refine sim_position.bind fun t t' ht => ?_
  refine (sim_embedded kp hs ht).bind fun e e' he => ?_
  refine sim_tok.bind fun k _ e => ?_
  subst e
  refine Sim.ite ?_ (Sim.ite ?_ (sim_perr _))
  · refine sim_unNext.bind fun _ _ _ => ?_
    refine sim_rpcOptions.bind fun o o' ho => ?_
    obtain ⟨ho, hi⟩ := ho
    refine sim_blockLastPos.bind fun u u' hu => ?_
    exact Sim.pure ⟨rfl, hx, hy, ho, .nil, .none, hi, he, ⟨Link.at_of hs, Link.at_of hu⟩⟩
  · exact Sim.pure ⟨rfl, hx, hy, .nil, .nil, .none, .none, he, ⟨Link.at_of hs, Link.at_of ht⟩⟩

theorem sim_serviceStmt (kp : ρ.keep) {cs cs' : List Comment} (h : RCs ρ cs cs') (t : Token) :
    SimP ρ (AlikeV ρ.at skip) (serviceStmt ⟨p, b, n⟩ cs t) (serviceStmt ⟨p, b', n'⟩ cs' t) := by
  unfold serviceStmt
  refine Sim.ite (sim_optionStmt h) (Sim.ite ?_ ?_)
  · exact (sim_rpc kp).bind fun _ _ hx => Sim.pure (.rpc { hx with comments := h })
  · exact sim_readEmptyStatement.bind fun _ _ _ => Sim.pure (.emptyStatement ⟨.none⟩)

include hb in
theorem sim_serviceLoop (kp : ρ.keep) (k : Nat) {vs vs' : List Visitee} {i i' : Option Comment}
    (hv : AlikeB ρ.at skip vs vs') (hi : RCo ρ i i') :
    SimP ρ (RBody ρ skip) (serviceLoop ⟨p, b, n⟩ i k vs) (serviceLoop ⟨p, b', n'⟩ i' k vs') := by
  induction k generalizing vs vs' with
  | zero => exact Sim.fuel
  | succ k ih =>
    unfold serviceLoop
    refine sim_parseComments.bind fun cs cs' hc => ?_
    refine sim_peekKeyword.bind fun t _ e => ?_
    subst e
    refine Sim.ite (sim_closeBody hb hc hv hi) ?_
    refine (sim_serviceStmt (skip := skip) kp hc t).bind fun x y hxy => ?_
    exact (sim_maybeScan hxy).bind fun x y hxy => ih (alikeB_snoc hv hxy)

include hb in
theorem sim_service (kp : ρ.keep) : SimP ρ (fun x y => AlikeService ρ.at x y ∧ AlikeB ρ.at skip x.serviceBody y.serviceBody)
    (parseService ⟨p, b, n⟩) (parseService ⟨p, b', n'⟩) := by
  unfold parseService
  refine (sim_expect _ _ (sim_nextWith _)).bind fun _ _ _ => ?_
  refine sim_position.bind fun s s' hs => ?_
  refine (sim_expect _ _ sim_next).bind fun _ _ _ => ?_
  refine sim_txt.bind fun _ _ e => ?_
  subst e
  refine Sim.bind (R := RBody ρ skip) ?_ fun x y hxy => ?_
  · unfold parseServiceBody
    refine (sim_expect _ _ sim_next).bind fun _ _ _ => ?_
    refine sim_inline.bind fun i i' hi => ?_
    refine sim_bound.bind fun _ _ e => ?_
    subst e
    exact sim_serviceLoop hb kp _ .nil hi
  · obtain ⟨h1, ⟨h2, h3⟩⟩ := hxy
    exact Sim.pure ⟨⟨rfl, .nil, .none, h2, ⟨Link.at_of hs, Link.at_of h3⟩⟩, h1⟩

/-! ## Files -/

include hb hn in
theorem sim_protoStmt (kp : ρ.keep) {cs cs' : List Comment} (hc : RCs ρ cs cs') (t : Token) :
    SimP ρ (RPair (AlikeB ρ.at skip) (AlikeV ρ.at skip)) (protoStmt ⟨p, b, n⟩ cs t)
      (protoStmt ⟨p, b', n'⟩ cs' t) := by
  unfold protoStmt
  split
  · exact sim_import.bind fun _ _ hx => Sim.pure (.mk .nil (.importStmt { hx with comments := hc }))
  · exact sim_package.bind fun _ _ hx => Sim.pure (.mk .nil (.package { hx with comments := hc }))
  · exact sim_option.bind fun _ _ hx => Sim.pure (.mk .nil (.option { hx with comments := hc }))
  · exact (sim_messageWith (sim_messageBody hb hn hn)).bind fun _ _ hx =>
      Sim.pure (.mk .nil (.message { hx.1 with comments := hc } hx.2))
  · exact (sim_enum hb).bind fun _ _ hx => Sim.pure (.mk .nil (.enum { hx.1 with comments := hc } hx.2))
  · exact (sim_service hb kp).bind fun _ _ hx => Sim.pure (.mk .nil (.service { hx.1 with comments := hc } hx.2))
  · exact (sim_extend hb).bind fun _ _ hx => Sim.pure (.mk .nil (.extend { hx.1 with comments := hc } hx.2))
  · exact sim_readEmptyStatement.bind fun _ _ _ => Sim.pure (.mk (.cons (.emptyStatement ⟨.none⟩) .nil) .nil)

include hb hn in
theorem sim_protoLoop (kp : ρ.keep) {k k' : Nat} (hk : k ≤ k') {vs vs' : List Visitee} (hv : AlikeB ρ.at skip vs vs') :
    SimP ρ (AlikeB ρ.at skip) (protoLoop ⟨p, b, n⟩ k vs) (protoLoop ⟨p, b', n'⟩ k' vs') := by
  induction k generalizing k' vs vs' with
  | zero => exact Sim.fuel
  | succ k ih =>
    obtain ⟨k', rfl⟩ : ∃ j, k' = j + 1 := ⟨k' - 1, by omega⟩
    unfold protoLoop
    refine sim_parseComments.bind fun cs cs' hc => ?_
    refine sim_eof.bind fun t _ e => ?_
    subst e
    refine Sim.ite (Sim.pure (alikeB_append hv (alike_bodyComments hb hc))) ?_
    refine sim_peekKeyword.bind fun t _ e => ?_
    subst e
    refine (sim_protoStmt hb hn kp hc t).bind fun x y hxy => ?_
    obtain ⟨h1, h2⟩ := hxy
    exact (sim_maybeScan h2).bind fun x y hxy => ih (by omega) (alikeB_snoc (alikeB_append hv h1) hxy)

theorem sim_syntaxPart {cs cs' : List Comment} (hc : RCs ρ cs cs') :
    SimP ρ (AlikeOpt (AlikeSyntax ρ.at)) (syntaxPart cs) (syntaxPart cs') := by
  unfold syntaxPart
  refine sim_syntax.bind fun x y h => ?_
  cases h with
  | none => exact Sim.pure .none
  | some h => exact sim_inline.bind fun _ _ hi => Sim.pure (.some { h with comments := hc, inlineComment := hi })

theorem sim_editionPart {cs cs' : List Comment} (hc : RCs ρ cs cs') :
    SimP ρ (AlikeOpt (AlikeEdition ρ.at)) (editionPart cs) (editionPart cs') := by
  unfold editionPart
  refine sim_edition.bind fun x y h => ?_
  cases h with
  | none => exact Sim.pure .none
  | some h => exact sim_inline.bind fun _ _ hi => Sim.pure (.some { h with comments := hc, inlineComment := hi })

/-- `ParseProto` after the byte order mark and the first comments. -/
def protoRest (cfg : Cfg) (comments : List Comment) : P Proto := do
  let syntax_ ← syntaxPart comments
  let edition ← editionPart comments
  let protoBody ← parseProtoBody cfg
  let pos ← position
  return { syntax_, edition, protoBody, metaFilename := pos.p.filename }

theorem parseProto_eq (cfg : Cfg) :
    parseProto cfg = (parseBOM >>= fun _ => parseComments >>= fun cs => protoRest cfg cs) := rfl

include hb hn in
theorem sim_protoRest (kp : ρ.keep) {cs cs' : List Comment} (hc : RCs ρ cs cs') :
    SimP ρ (AlikeProto ρ.at skip) (protoRest ⟨p, b, n⟩ cs) (protoRest ⟨p, b', n'⟩ cs') := by
  unfold protoRest
  refine (sim_syntaxPart hc).bind fun s s' hs => ?_
  refine (sim_editionPart hc).bind fun e e' he => ?_
  refine (sim_protoLoop hb hn kp hn .nil).bind fun v v' hv => ?_
  exact sim_position.bind fun q q' hq => Sim.pure ⟨hs, he, hv, _, _, Link.at_of hq, rfl, rfl⟩

end Verif.Parser
