import Verif.Proofs.Sim

set_option backward.isDefEq.respectTransparency false
set_option backward.dsimp.instances true

/-!
# Two runs of the parser side by side

Every function of the parser, run on related lexers, with the same `permissive` flag, gives related
results.  The first run may have a smaller bound; the flags `bodyIncludingComments` may differ if `skip`.
-/

namespace Verif.Parser

open Verif Spec Lexer

variable {ρ : Link}

abbrev RC (ρ : Link) := AlikeComment ρ.at
abbrev RCs (ρ : Link) := AlikeList (RC ρ)
abbrev RCo (ρ : Link) := AlikeOpt (RC ρ)

theorem sim_orUnexpected {α : Type} {R : α → α → Prop} {m m' : P α} (e : String) (h : SimP ρ R m m') :
    SimP ρ R (orUnexpected m e) (orUnexpected m' e) := by
  refine (Sim.attempt h).bind fun a b h => ?_
  cases h with
  | ok h => exact Sim.pure h
  | error _ => exact sim_perr _

theorem sim_expect {m m' : P Unit} (t : Token) (e : String) (h : SimP ρ Eq m m') :
    SimP ρ Eq (expect m t e) (expect m' t e) := by
  refine h.bind fun _ _ _ => ?_
  sim

macro_rules | `(tactic| simlem) => `(tactic| (apply sim_expect; simlem))
macro_rules | `(tactic| simlem) => `(tactic| (apply sim_orUnexpected; simlem))

theorem sim_peekKeyword : SimP ρ Eq peekKeyword peekKeyword := by unfold peekKeyword; sim
macro_rules | `(tactic| simlem) => `(tactic| exact sim_peekKeyword)

theorem sim_eof : SimP ρ Eq Parser.isEOF Parser.isEOF := by unfold Parser.isEOF; sim
macro_rules | `(tactic| simlem) => `(tactic| exact sim_eof)

/-! ## Comments -/

theorem rel_advanceAll {p q : SPos} (t : Str) (h : ρ.pos p q) : ρ.pos (p.advanceAll t) (q.advanceAll t) := by
  induction t generalizing p q with
  | nil => exact h
  | cons c t ih => exact ih (ρ.advance c h)

theorem rel_mkComment (t : Str) {p q : SPos} (h : ρ.pos p q) : RC ρ (mkComment t p) (mkComment t q) :=
  ⟨rfl, ⟨Link.at_of h, Link.at_of (ρ.revert _ (rel_advanceAll t h))⟩⟩

theorem sim_parseComment : SimP ρ (RC ρ) parseComment parseComment := by
  unfold parseComment
  refine (sim_nextWith _).bind fun _ _ _ => ?_
  refine sim_tok.bind fun t _ e => ?_
  subst e
  refine Sim.ite (sim_txt.bind fun x _ e => ?_) ?_
  · subst e
    exact sim_position.bind fun p q h => Sim.pure (rel_mkComment x h)
  · refine (Sim.attempt (sim_perr (R := RC ρ) _)).bind fun a b h => ?_
    refine sim_unNext.bind fun _ _ _ => ?_
    cases h with
    | ok h => exact Sim.pure h
    | error h => exact Sim.throw h

theorem alike_snoc {α : Type} {R : α → α → Prop} {as bs : List α} {a b : α} (h : AlikeList R as bs)
    (hab : R a b) : AlikeList R (as ++ [a]) (bs ++ [b]) := by
  induction h with
  | nil => exact .cons hab .nil
  | cons h _ ih => exact .cons h ih

theorem sim_commentsLoop (n : Nat) {cs cs' : List Comment} (h : RCs ρ cs cs') :
    SimP ρ (RCs ρ) (parseCommentsLoop n cs) (parseCommentsLoop n cs') := by
  induction n generalizing cs cs' with
  | zero => exact Sim.fuel
  | succ n ih =>
    unfold parseCommentsLoop
    refine (Sim.attempt sim_parseComment).bind fun a b hab => ?_
    cases hab with
    | error _ => exact Sim.pure h
    | ok hab => exact ih (alike_snoc h hab)

theorem sim_parseComments : SimP ρ (RCs ρ) parseComments parseComments := by
  refine sim_bound.bind fun n _ e => ?_
  subst e
  exact sim_commentsLoop n .nil
macro_rules | `(tactic| simlem) => `(tactic| exact sim_parseComments)

theorem alike_filter_map {α β : Type} {R : α → α → Prop} {Q : β → β → Prop} {as bs : List α} {p q : α → Bool}
    {f g : α → β} (h : AlikeList R as bs) (hp : ∀ a b, R a b → p a = q b)
    (hf : ∀ a b, R a b → Q (f a) (g b)) : AlikeList Q ((as.filter p).map f) ((bs.filter q).map g) := by
  induction h with
  | nil => exact .nil
  | @cons a b as bs hab _ ih =>
    simp only [List.filter_cons, hp a b hab]
    by_cases hq : q b = true
    · rw [if_pos hq, if_pos hq]; exact .cons (hf a b hab) ih
    · rw [if_neg hq, if_neg hq]; exact ih

theorem sim_embedded (hk : ρ.keep) {a a' b b' : SPos} (ha : ρ.pos a a') (hb : ρ.pos b b') :
    SimP ρ (RCs ρ) (findEmbeddedComments a b) (findEmbeddedComments a' b') := by
  intro l l' h
  refine ⟨alike_filter_map (h.scanner.comments hk) (fun c d hcd => ?_) (fun c d hcd => ?_), h⟩
  · have h1 := ρ.offset ha
    have h2 := ρ.offset hb
    have h3 := ρ.offset hcd.pos
    rw [decide_eq_decide, h1, h2, h3]
    constructor <;> rintro ⟨x, y⟩ <;> constructor <;> omega
  · rw [hcd.literal]; exact rel_mkComment _ hcd.pos

theorem at_line {p q : Position} (h : ρ.at p q) : q.line = p.line + ρ.lines := by
  obtain ⟨P, Q, h, rfl, rfl⟩ := h
  exact ρ.line h

theorem sim_inline : SimP ρ (RCo ρ) parseInlineComment parseInlineComment := by
  unfold parseInlineComment
  refine sim_position.bind fun p q hp => ?_
  refine (Sim.attempt sim_parseComment).bind fun a b hab => ?_
  cases hab with
  | error _ => exact Sim.pure .none
  | ok hab =>
    refine Sim.ite_iff ?_ (sim_unNext.bind fun _ _ _ => Sim.pure .none) (Sim.pure (.some hab))
    rw [ρ.line hp, at_line hab.info.pos]
    constructor <;> intro h h' <;> exact h (by omega)
macro_rules | `(tactic| simlem) => `(tactic| exact sim_inline)

theorem sim_setInline {skip : Coms} {v v' : Visitee} {c c' : Comment} (hv : AlikeV ρ.at skip v v')
    (hc : RC ρ c c') : SimP ρ (AlikeV ρ.at skip) (setInlineComment v c) (setInlineComment v' c') := by
  cases hv with
  | nil => exact Sim.panic
  | comment _ _ => exact Sim.panic
  | importStmt h => exact Sim.pure (.importStmt { h with inlineComment := .some hc })
  | package h => exact Sim.pure (.package { h with inlineComment := .some hc })
  | option h => exact Sim.pure (.option { h with inlineComment := .some hc })
  | message h hb => exact Sim.pure (.message { h with inlineComment := .some hc } hb)
  | enum h hb => exact Sim.pure (.enum { h with inlineComment := .some hc } hb)
  | service h hb => exact Sim.pure (.service { h with inlineComment := .some hc } hb)
  | extend h hb => exact Sim.pure (.extend { h with inlineComment := .some hc } hb)
  | emptyStatement h => exact Sim.pure (.emptyStatement { h with inlineComment := .some hc })
  | field h => exact Sim.pure (.field { h with inlineComment := .some hc })
  | enumField h => exact Sim.pure (.enumField { h with inlineComment := .some hc })
  | oneof h => exact Sim.pure (.oneof { h with inlineComment := .some hc })
  | mapField h => exact Sim.pure (.mapField { h with inlineComment := .some hc })
  | groupField h hb => exact Sim.pure (.groupField { h with inlineComment := .some hc } hb)
  | reserved h => exact Sim.pure (.reserved { h with inlineComment := .some hc })
  | extensions h => exact Sim.pure (.extensions { h with inlineComment := .some hc })
  | rpc h => exact Sim.pure (.rpc { h with inlineComment := .some hc })

theorem sim_maybeScan {skip : Coms} {v v' : Visitee} (hv : AlikeV ρ.at skip v v') :
    SimP ρ (AlikeV ρ.at skip) (maybeScanInlineComment v) (maybeScanInlineComment v') := by
  refine sim_inline.bind fun a b h => ?_
  cases h with
  | none => exact Sim.pure hv
  | some h => exact sim_setInline hv h

/-! ## Statements without blocks -/

variable {p b b' : Bool} {n n' : Nat}

theorem sim_blockLastPos : SimP ρ ρ.pos (blockLastPos ⟨p, b, n⟩) (blockLastPos ⟨p, b', n'⟩) := by
  unfold blockLastPos; sim
macro_rules | `(tactic| simlem) => `(tactic| exact sim_blockLastPos)

theorem sim_syntax : SimP ρ (AlikeOpt (AlikeSyntax ρ.at)) parseSyntax parseSyntax := by
  unfold parseSyntax; sim

theorem sim_edition : SimP ρ (AlikeOpt (AlikeEdition ρ.at)) parseEdition parseEdition := by
  unfold parseEdition; sim

theorem sim_package : SimP ρ (AlikePackage ρ.at) parsePackage parsePackage := by
  unfold parsePackage; sim

theorem sim_importModifier : SimP ρ Eq parseImportModifier parseImportModifier := by
  unfold parseImportModifier; sim
macro_rules | `(tactic| simlem) => `(tactic| exact sim_importModifier)

theorem sim_import : SimP ρ (AlikeImport ρ.at) parseImport parseImport := by
  unfold parseImport; sim

theorem sim_nameDot : SimP ρ Eq (optionNameDot ⟨p, b, n⟩) (optionNameDot ⟨p, b', n'⟩) := by
  unfold optionNameDot; sim
macro_rules | `(tactic| simlem) => `(tactic| exact sim_nameDot)

theorem sim_namePart (e : String) :
    SimP ρ Eq (optionNamePart ⟨p, b, n⟩ e) (optionNamePart ⟨p, b', n'⟩ e) := by
  unfold optionNamePart; sim
macro_rules | `(tactic| simlem) => `(tactic| exact sim_namePart _)

theorem sim_nameLoop (k : Nat) (x : Str) :
    SimP ρ Eq (optionNameLoop ⟨p, b, n⟩ k x) (optionNameLoop ⟨p, b', n'⟩ k x) := by
  induction k generalizing x with
  | zero => exact Sim.fuel
  | succ k ih => unfold optionNameLoop; sim; all_goals exact ih _
macro_rules | `(tactic| simlem) => `(tactic| exact sim_nameLoop _ _)

theorem sim_name : SimP ρ Eq (parseOptionName ⟨p, b, n⟩) (parseOptionName ⟨p, b', n'⟩) := by
  unfold parseOptionName; sim
macro_rules | `(tactic| simlem) => `(tactic| exact sim_name)

theorem sim_cloudSeparator : SimP ρ Eq (cloudSeparator ⟨p, b, n⟩) (cloudSeparator ⟨p, b', n'⟩) := by
  unfold cloudSeparator; sim

theorem sim_cloudNeedSemi (x : Bool) :
    SimP ρ Eq (cloudNeedSemi ⟨p, b, n⟩ x) (cloudNeedSemi ⟨p, b', n'⟩ x) := by
  unfold cloudNeedSemi; sim
macro_rules | `(tactic| simlem) => `(tactic| exact sim_cloudSeparator)
macro_rules | `(tactic| simlem) => `(tactic| exact sim_cloudNeedSemi _)

theorem sim_cloudClose : SimP ρ Eq (cloudClose ⟨p, b, n⟩) (cloudClose ⟨p, b', n'⟩) := by
  unfold cloudClose; sim
macro_rules | `(tactic| simlem) => `(tactic| exact sim_cloudClose)

theorem sim_cloudLoop {m m' : P Str} (h : SimP ρ Eq m m') (k : Nat) (x : Str) :
    SimP ρ Eq (cloudLoop ⟨p, b, n⟩ m k x) (cloudLoop ⟨p, b', n'⟩ m' k x) := by
  induction k generalizing x with
  | zero => exact Sim.fuel
  | succ k ih =>
    unfold cloudLoop
    refine (sim_expect _ _ sim_next).bind fun _ _ _ => ?_
    refine sim_txt.bind fun _ _ e => ?_
    subst e
    refine sim_cloudSeparator.bind fun _ _ e => ?_
    subst e
    refine h.bind fun _ _ e => ?_
    subst e
    refine (sim_cloudNeedSemi _).bind fun _ _ e => ?_
    subst e
    refine sim_cloudClose.bind fun _ _ e => ?_
    subst e
    exact Sim.ite (Sim.pure rfl) (ih _)

theorem sim_parseCloud {m m' : P Str} (h : SimP ρ Eq m m') :
    SimP ρ Eq (parseCloud ⟨p, b, n⟩ m) (parseCloud ⟨p, b', n'⟩ m') := by
  unfold parseCloud
  sim
  exact sim_cloudLoop h _ _

theorem sim_constantsLoop {m m' : P Str} (h : SimP ρ Eq m m') (k : Nat) (x : Str) :
    SimP ρ Eq (constantsLoop m k x) (constantsLoop m' k x) := by
  induction k generalizing x with
  | zero => exact Sim.fuel
  | succ k ih =>
    unfold constantsLoop
    sim
    refine (sim_orUnexpected _ h).bind fun _ _ e => ?_
    subst e
    exact ih _

theorem sim_constants {m m' : P Str} (h : SimP ρ Eq m m') :
    SimP ρ Eq (parseOptionConstants m) (parseOptionConstants m') := by
  unfold parseOptionConstants
  refine h.bind fun _ _ e => ?_
  subst e
  refine sim_bound.bind fun _ _ e => ?_
  subst e
  exact sim_constantsLoop h _ _

theorem sim_optionConstant (k : Nat) :
    SimP ρ Eq (optionConstant ⟨p, b, n⟩ k) (optionConstant ⟨p, b', n'⟩ k) := by
  induction k with
  | zero => exact Sim.fuel
  | succ k ih =>
    have h1 := sim_constants ih
    have h2 := sim_parseCloud (p := p) (b := b) (n := n) (b' := b') (n' := n') ih
    unfold optionConstant
    sim
    refine h1.bind fun _ _ e => ?_
    subst e
    sim

theorem sim_constant : SimP ρ Eq (parseOptionConstant ⟨p, b, n⟩) (parseOptionConstant ⟨p, b', n'⟩) := by
  unfold parseOptionConstant
  refine sim_bound.bind fun _ _ e => ?_
  subst e
  exact sim_optionConstant _
macro_rules | `(tactic| simlem) => `(tactic| exact sim_constant)

theorem sim_option : SimP ρ (AlikeOption ρ.at) (parseOption ⟨p, b, n⟩) (parseOption ⟨p, b', n'⟩) := by
  unfold parseOption; sim
macro_rules | `(tactic| simlem) => `(tactic| exact sim_option)

theorem sim_type : SimP ρ (RPair Eq ρ.pos) parseType parseType := by
  unfold parseType; sim
macro_rules | `(tactic| simlem) => `(tactic| exact sim_type)

theorem sim_number : SimP ρ Eq parseFieldNumber parseFieldNumber := by
  unfold parseFieldNumber; sim
macro_rules | `(tactic| simlem) => `(tactic| exact sim_number)

theorem sim_fieldOption : SimP ρ Eq (parseFieldOption ⟨p, b, n⟩) (parseFieldOption ⟨p, b', n'⟩) := by
  unfold parseFieldOption; sim
macro_rules | `(tactic| simlem) => `(tactic| exact sim_fieldOption)

theorem sim_fieldOptionsLoop (e : String) (k : Nat) (os : List FieldOption) :
    SimP ρ Eq (fieldOptionsLoop ⟨p, b, n⟩ e k os) (fieldOptionsLoop ⟨p, b', n'⟩ e k os) := by
  induction k generalizing os with
  | zero => exact Sim.fuel
  | succ k ih => unfold fieldOptionsLoop; sim; all_goals exact ih _
macro_rules | `(tactic| simlem) => `(tactic| exact sim_fieldOptionsLoop _ _ _)

theorem sim_fieldOptions : SimP ρ Eq (parseFieldOptions ⟨p, b, n⟩) (parseFieldOptions ⟨p, b', n'⟩) := by
  unfold parseFieldOptions; sim
macro_rules | `(tactic| simlem) => `(tactic| exact sim_fieldOptions)

theorem sim_fieldOptionsOption :
    SimP ρ Eq (parseFieldOptionsOption ⟨p, b, n⟩) (parseFieldOptionsOption ⟨p, b', n'⟩) := by
  unfold parseFieldOptionsOption; sim
macro_rules | `(tactic| simlem) => `(tactic| exact sim_fieldOptionsOption)

theorem sim_label : SimP ρ Eq parseLabel parseLabel := by unfold parseLabel; sim
macro_rules | `(tactic| simlem) => `(tactic| exact sim_label)

theorem sim_field : SimP ρ (AlikeField ρ.at) (parseField ⟨p, b, n⟩) (parseField ⟨p, b', n'⟩) := by
  unfold parseField; sim
macro_rules | `(tactic| simlem) => `(tactic| exact sim_field)

theorem sim_keyType : SimP ρ Eq parseKeyType parseKeyType := by unfold parseKeyType; sim
macro_rules | `(tactic| simlem) => `(tactic| exact sim_keyType)

theorem sim_mapField : SimP ρ (AlikeMapField ρ.at) (parseMapField ⟨p, b, n⟩) (parseMapField ⟨p, b', n'⟩) := by
  unfold parseMapField; sim
macro_rules | `(tactic| simlem) => `(tactic| exact sim_mapField)

theorem sim_oneofField :
    SimP ρ (AlikeOneofField ρ.at) (parseOneofField ⟨p, b, n⟩) (parseOneofField ⟨p, b', n'⟩) := by
  unfold parseOneofField; sim
macro_rules | `(tactic| simlem) => `(tactic| exact sim_oneofField)

end Verif.Parser
