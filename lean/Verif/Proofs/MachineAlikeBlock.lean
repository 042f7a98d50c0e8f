import Verif.Proofs.MachineAlikeParse

set_option backward.isDefEq.respectTransparency false
set_option backward.dsimp.instances true

/-!
# Blocks and files on two readers
-/

namespace Verif.Par

open Verif

variable {ρ ρ' : Type} [Source ρ] [Source ρ'] [Linked ρ ρ']

theorem par_recoverEmpty (e : Err) :
    Par (ρ := ρ) (ρ' := ρ') (Machine.Parse.recoverEmpty e) (Machine.Parse.recoverEmpty e) := by
  unfold Machine.Parse.recoverEmpty
  exact par_unNext.bind fun _ => Par.bind_attempt par_readEmptyStatement (fun _ => Par.pure rfl) fun _ => Par.throw
macro_rules | `(tactic| parlem) => `(tactic| with_reducible exact par_recoverEmpty _)

theorem par_closeBody (cfg : Cfg) (cs : List Comment) (vs : List Visitee) (il : Option Comment) :
    Par (ρ := ρ) (ρ' := ρ') (Machine.Parse.closeBody cfg cs vs il) (Machine.Parse.closeBody cfg cs vs il) := by
  unfold Machine.Parse.closeBody; par
macro_rules | `(tactic| parlem) => `(tactic| with_reducible exact par_closeBody _ _ _ _)

/-! ## Enums -/

theorem par_parseEnumValueOptions (cfg : Cfg) :
    Par (ρ := ρ) (ρ' := ρ') (Machine.Parse.parseEnumValueOptions cfg) (Machine.Parse.parseEnumValueOptions cfg) := by
  unfold Machine.Parse.parseEnumValueOptions; par
macro_rules | `(tactic| parlem) => `(tactic| with_reducible exact par_parseEnumValueOptions _)

theorem par_parseSign : Par (ρ := ρ) (ρ' := ρ') Machine.Parse.parseSign Machine.Parse.parseSign := by
  unfold Machine.Parse.parseSign; par
macro_rules | `(tactic| parlem) => `(tactic| with_reducible exact par_parseSign)

theorem par_parseEnumField (cfg : Cfg) :
    Par (ρ := ρ) (ρ' := ρ') (Machine.Parse.parseEnumField cfg) (Machine.Parse.parseEnumField cfg) := by
  unfold Machine.Parse.parseEnumField; par

theorem par_enumStmt (cfg : Cfg) (cs : List Comment) (t : Token) :
    Par (ρ := ρ) (ρ' := ρ') (Machine.Parse.enumStmt cfg cs t) (Machine.Parse.enumStmt cfg cs t) := by
  unfold Machine.Parse.enumStmt
  refine Par.ite ?_ (Par.ite ?_ ?_)
  · exact (par_parseOption cfg).bind fun _ => Par.pure rfl
  · exact par_parseReserved.bind fun _ => Par.pure rfl
  · exact Par.bind_attempt (par_parseEnumField cfg) (fun _ => Par.pure rfl) fun e => par_recoverEmpty e

theorem par_enumLoop (cfg : Cfg) (il : Option Comment) (n : Nat) (vs : List Visitee) :
    Par (ρ := ρ) (ρ' := ρ') (Machine.Parse.enumLoop cfg il n vs) (Machine.Parse.enumLoop cfg il n vs) := by
  induction n generalizing vs with
  | zero => exact Par.fuel
  | succ n ih =>
    unfold Machine.Parse.enumLoop
    refine par_parseComments.bind fun cs => par_peekKeyword.bind fun t => Par.ite (par_closeBody _ _ _ _) ?_
    exact (par_enumStmt cfg cs t).bind fun v => (par_maybeScanInlineComment v).bind fun w => ih _

theorem par_parseEnumBody (cfg : Cfg) :
    Par (ρ := ρ) (ρ' := ρ') (Machine.Parse.parseEnumBody cfg) (Machine.Parse.parseEnumBody cfg) := by
  unfold Machine.Parse.parseEnumBody
  exact (par_expect _ _ par_next).bind fun _ => par_parseInlineComment.bind fun il => par_bound.bind fun n =>
    par_enumLoop cfg il n []

theorem par_parseEnum (cfg : Cfg) : Par (ρ := ρ) (ρ' := ρ') (Machine.Parse.parseEnum cfg) (Machine.Parse.parseEnum cfg) := by
  unfold Machine.Parse.parseEnum
  refine (par_expect _ _ (par_nextWith _)).bind fun _ => par_position.bind fun p => ?_
  refine (par_expect _ _ par_next).bind fun _ => par_txt.bind fun x => ?_
  exact (par_parseEnumBody cfg).bind3 fun a b c => Par.pure rfl

/-! ## Extends -/

theorem par_extendStmt (cfg : Cfg) (cs : List Comment) :
    Par (ρ := ρ) (ρ' := ρ') (Machine.Parse.extendStmt cfg cs) (Machine.Parse.extendStmt cfg cs) := by
  unfold Machine.Parse.extendStmt
  exact Par.bind_attempt (par_parseField cfg) (fun _ => Par.pure rfl) fun e => par_recoverEmpty e

theorem par_extendLoop (cfg : Cfg) (il : Option Comment) (n : Nat) (vs : List Visitee) :
    Par (ρ := ρ) (ρ' := ρ') (Machine.Parse.extendLoop cfg il n vs) (Machine.Parse.extendLoop cfg il n vs) := by
  induction n generalizing vs with
  | zero => exact Par.fuel
  | succ n ih =>
    unfold Machine.Parse.extendLoop
    refine par_parseComments.bind fun cs => par_peekKeyword.bind fun t => Par.ite (par_closeBody _ _ _ _) ?_
    exact (par_extendStmt cfg cs).bind fun v => (par_maybeScanInlineComment v).bind fun w => ih _

theorem par_parseExtendBody (cfg : Cfg) :
    Par (ρ := ρ) (ρ' := ρ') (Machine.Parse.parseExtendBody cfg) (Machine.Parse.parseExtendBody cfg) := by
  unfold Machine.Parse.parseExtendBody
  refine (par_expect _ _ par_next).bind fun _ => par_parseInlineComment.bind fun il => ?_
  refine par_next.bind fun _ => par_tok.bind fun t => Par.ite ?_ ?_
  · exact (par_blockLastPos cfg).bind fun p => Par.pure rfl
  · exact par_unNext.bind fun _ => par_bound.bind fun n => par_extendLoop cfg il n []

theorem par_parseExtend (cfg : Cfg) :
    Par (ρ := ρ) (ρ' := ρ') (Machine.Parse.parseExtend cfg) (Machine.Parse.parseExtend cfg) := by
  unfold Machine.Parse.parseExtend
  refine (par_expect _ _ (par_nextWith _)).bind fun _ => par_position.bind fun p => ?_
  refine par_readMessageType.bind2 fun x y => ?_
  exact (par_parseExtendBody cfg).bind3 fun a b c => Par.pure rfl

/-! ## Groups -/

theorem par_peekGroupCurly : Par (ρ := ρ) (ρ' := ρ') Machine.Parse.peekGroupCurly Machine.Parse.peekGroupCurly := by
  unfold Machine.Parse.peekGroupCurly; par

theorem par_peekGroupNumber : Par (ρ := ρ) (ρ' := ρ') Machine.Parse.peekGroupNumber Machine.Parse.peekGroupNumber := by
  unfold Machine.Parse.peekGroupNumber
  refine Par.bind_attempt par_parseFieldNumber (fun a => ?_) fun e => ?_
  · refine par_rawText.bind fun r => ?_
    exact par_peekGroupCurly.bind fun b => (par_unNextTo r).bind fun _ => Par.pure rfl
  · exact par_rawText.bind fun r => (par_unNextTo r).bind fun _ => Par.pure rfl

theorem par_peekGroupEquals : Par (ρ := ρ) (ρ' := ρ') Machine.Parse.peekGroupEquals Machine.Parse.peekGroupEquals := by
  unfold Machine.Parse.peekGroupEquals
  refine par_next.bind fun _ => par_rawText.bind fun r => par_tok.bind fun t => Par.ite ?_ ?_
  · exact (par_unNextTo r).bind fun _ => Par.pure rfl
  · exact par_peekGroupNumber.bind fun b => (par_unNextTo r).bind fun _ => Par.pure rfl

theorem par_peekGroupName : Par (ρ := ρ) (ρ' := ρ') Machine.Parse.peekGroupName Machine.Parse.peekGroupName := by
  unfold Machine.Parse.peekGroupName
  refine par_next.bind fun _ => par_rawText.bind fun r => par_tok.bind fun t => par_txt.bind fun x =>
    Par.ite ?_ (Par.ite ?_ ?_)
  · exact (par_unNextTo r).bind fun _ => Par.pure rfl
  · exact (par_unNextTo r).bind fun _ => Par.pure rfl
  · exact par_peekGroupEquals.bind fun b => (par_unNextTo r).bind fun _ => Par.pure rfl

theorem par_peekGroupKeyword : Par (ρ := ρ) (ρ' := ρ') Machine.Parse.peekGroupKeyword Machine.Parse.peekGroupKeyword := by
  unfold Machine.Parse.peekGroupKeyword
  refine (par_nextWith _).bind fun _ => par_rawText.bind fun r => par_tok.bind fun t => Par.ite ?_ ?_
  · exact (par_unNextTo r).bind fun _ => Par.pure rfl
  · exact par_peekGroupName.bind fun b => (par_unNextTo r).bind fun _ => Par.pure rfl

theorem par_peekIsGroup : Par (ρ := ρ) (ρ' := ρ') Machine.Parse.peekIsGroup Machine.Parse.peekIsGroup := by
  unfold Machine.Parse.peekIsGroup
  refine (par_nextWith _).bind fun _ => par_tok.bind fun t => Par.ite ?_ ?_
  · exact par_rawText.bind fun r => par_peekGroupKeyword.bind fun b => (par_unNextTo r).bind fun _ => Par.pure rfl
  · exact par_unNext.bind fun _ => par_peekGroupKeyword

section
variable {body : MP ρ Machine.Parse.Body} {body' : MP ρ' Machine.Parse.Body} (hb : Par body body')
include hb

theorem par_parseGroupFieldWith :
    Par (Machine.Parse.parseGroupFieldWith body) (Machine.Parse.parseGroupFieldWith body') := by
  unfold Machine.Parse.parseGroupFieldWith
  refine (par_nextWith _).bind fun _ => par_position.bind fun p => par_parseLabel.bind fun lb => ?_
  refine (par_expect _ _ (par_nextWith _)).bind fun _ => (par_expect _ _ par_next).bind fun _ => ?_
  refine par_txt.bind fun x => Par.ite (Par.par_perr _) ?_
  refine (par_expect _ _ par_next).bind fun _ => (par_orUnexpected _ par_parseFieldNumber).bind fun n => ?_
  exact hb.bind3 fun a b c => Par.pure rfl

theorem par_parseMessageWith :
    Par (Machine.Parse.parseMessageWith body) (Machine.Parse.parseMessageWith body') := by
  unfold Machine.Parse.parseMessageWith
  refine (par_expect _ _ (par_nextWith _)).bind fun _ => par_position.bind fun p => ?_
  refine (par_expect _ _ par_next).bind fun _ => par_txt.bind fun x => ?_
  exact hb.bind3 fun a b c => Par.pure rfl

variable (cfg : Cfg)

theorem par_fieldStmt (cs : List Comment) :
    Par (Machine.Parse.fieldStmt cfg body cs) (Machine.Parse.fieldStmt cfg body' cs) := by
  unfold Machine.Parse.fieldStmt
  refine par_peekIsGroup.bind fun b => Par.ite ?_ ?_
  · exact Par.bind_attempt (par_parseGroupFieldWith hb) (fun _ => Par.pure rfl) fun e => par_recoverEmpty e
  · exact Par.bind_attempt (par_parseField cfg) (fun _ => Par.pure rfl) fun e => par_recoverEmpty e

theorem par_messageStmt (cs : List Comment) (t : Token) :
    Par (Machine.Parse.messageStmt cfg body cs t) (Machine.Parse.messageStmt cfg body' cs t) := by
  unfold Machine.Parse.messageStmt
  cases t <;> dsimp only <;>
    first
      | with_reducible exact par_fieldStmt hb cfg cs
      | with_reducible exact (par_parseEnum cfg).bind fun _ => Par.pure rfl
      | with_reducible exact (par_parseMessageWith hb).bind fun _ => Par.pure rfl
      | with_reducible exact (par_parseOption cfg).bind fun _ => Par.pure rfl
      | with_reducible exact (par_parseOneof cfg).bind fun _ => Par.pure rfl
      | with_reducible exact (par_parseMapField cfg).bind fun _ => Par.pure rfl
      | with_reducible exact (par_parseExtend cfg).bind fun _ => Par.pure rfl
      | with_reducible exact par_parseReserved.bind fun _ => Par.pure rfl
      | with_reducible exact par_parseExtensions.bind fun _ => Par.pure rfl

theorem par_messageLoop (il : Option Comment) (n : Nat) (vs : List Visitee) :
    Par (Machine.Parse.messageLoop cfg body il n vs) (Machine.Parse.messageLoop cfg body' il n vs) := by
  induction n generalizing vs with
  | zero => exact Par.fuel
  | succ n ih =>
    unfold Machine.Parse.messageLoop
    refine par_parseComments.bind fun cs => par_peekKeyword.bind fun t => Par.ite (par_closeBody _ _ _ _) ?_
    exact (par_messageStmt hb cfg cs t).bind fun v => (par_maybeScanInlineComment v).bind fun w => ih _

theorem par_messageBodyWith :
    Par (Machine.Parse.messageBodyWith cfg body) (Machine.Parse.messageBodyWith cfg body') := by
  unfold Machine.Parse.messageBodyWith
  refine (par_expect _ _ par_next).bind fun _ => par_parseInlineComment.bind fun il => ?_
  refine par_next.bind fun _ => par_tok.bind fun t => Par.ite ?_ ?_
  · exact (par_blockLastPos cfg).bind fun p => Par.pure rfl
  · exact par_unNext.bind fun _ => par_messageLoop hb cfg il _ []

end

theorem par_messageBody (cfg : Cfg) (d : Nat) :
    Par (ρ := ρ) (ρ' := ρ') (Machine.Parse.messageBody cfg d) (Machine.Parse.messageBody cfg d) := by
  induction d with
  | zero => exact Par.fuel
  | succ d ih => exact par_messageBodyWith ih cfg

theorem par_parseMessage (cfg : Cfg) :
    Par (ρ := ρ) (ρ' := ρ') (Machine.Parse.parseMessage cfg) (Machine.Parse.parseMessage cfg) :=
  par_parseMessageWith (par_messageBody cfg _)

/-! ## What services are made of -/

theorem par_parseRPCMessage : Par (ρ := ρ) (ρ' := ρ') Machine.Parse.parseRPCMessage Machine.Parse.parseRPCMessage := by
  unfold Machine.Parse.parseRPCMessage; par

theorem par_rpcOptionsStmt (cfg : Cfg) :
    Par (ρ := ρ) (ρ' := ρ') (Machine.Parse.rpcOptionsStmt cfg) (Machine.Parse.rpcOptionsStmt cfg) := by
  unfold Machine.Parse.rpcOptionsStmt; par

theorem par_rpcOptionsLoop (cfg : Cfg) (n : Nat) (x : List OptionStmt) :
    Par (ρ := ρ) (ρ' := ρ') (Machine.Parse.rpcOptionsLoop cfg n x) (Machine.Parse.rpcOptionsLoop cfg n x) := by
  induction n generalizing x with
  | zero => exact Par.fuel
  | succ n ih =>
    unfold Machine.Parse.rpcOptionsLoop
    refine (par_rpcOptionsStmt cfg).bind fun os => par_next.bind fun _ => par_tok.bind fun t => ?_
    exact Par.ite (Par.pure rfl) (par_unNext.bind fun _ => ih _)

theorem par_parseRPCOptions (cfg : Cfg) :
    Par (ρ := ρ) (ρ' := ρ') (Machine.Parse.parseRPCOptions cfg) (Machine.Parse.parseRPCOptions cfg) := by
  unfold Machine.Parse.parseRPCOptions
  refine (par_expect _ _ par_next).bind fun _ => par_parseInlineComment.bind fun il => par_bound.bind fun n => ?_
  exact (par_rpcOptionsLoop cfg n []).bind fun os => Par.pure rfl

/-! ## The head of a file -/

theorem par_parseBOM : Par (ρ := ρ) (ρ' := ρ') Machine.Parse.parseBOM Machine.Parse.parseBOM := by
  unfold Machine.Parse.parseBOM; par

theorem par_syntaxPart (cs : List Comment) :
    Par (ρ := ρ) (ρ' := ρ') (Machine.Parse.syntaxPart cs) (Machine.Parse.syntaxPart cs) := by
  unfold Machine.Parse.syntaxPart
  refine par_parseSyntax.bind fun a => ?_
  cases a with
  | none => exact Par.pure rfl
  | some x => exact par_parseInlineComment.bind fun _ => Par.pure rfl

theorem par_editionPart (cs : List Comment) :
    Par (ρ := ρ) (ρ' := ρ') (Machine.Parse.editionPart cs) (Machine.Parse.editionPart cs) := by
  unfold Machine.Parse.editionPart
  refine par_parseEdition.bind fun a => ?_
  cases a with
  | none => exact Par.pure rfl
  | some x => exact par_parseInlineComment.bind fun _ => Par.pure rfl

/-! ## Services -/

theorem par_parseRPC (cfg : Cfg) :
    Par (ρ := ρ) (ρ' := ρ') (Machine.Parse.parseRPC cfg) (Machine.Parse.parseRPC cfg) := by
  unfold Machine.Parse.parseRPC
  refine (par_expect _ _ par_nextKeyword).bind fun _ => par_position.bind fun a => ?_
  refine (par_expect _ _ par_next).bind fun _ => par_txt.bind fun x => par_parseRPCMessage.bind fun q => ?_
  refine (par_expect _ _ par_nextKeyword).bind fun _ => par_parseRPCMessage.bind fun p => ?_
  refine par_next.bind fun _ => par_position.bind fun b => (par_findEmbeddedComments a b).bind fun cs => ?_
  refine par_tok.bind fun t => Par.ite ?_ (Par.ite (Par.pure rfl) (Par.par_perr _))
  refine par_unNext.bind fun _ => (par_parseRPCOptions cfg).bind2 fun o i => ?_
  exact (par_blockLastPos cfg).bind fun c => Par.pure rfl

theorem par_serviceStmt (cfg : Cfg) (cs : List Comment) (t : Token) :
    Par (ρ := ρ) (ρ' := ρ') (Machine.Parse.serviceStmt cfg cs t) (Machine.Parse.serviceStmt cfg cs t) := by
  unfold Machine.Parse.serviceStmt
  refine Par.ite ?_ (Par.ite ?_ ?_)
  · exact (par_parseOption cfg).bind fun _ => Par.pure rfl
  · exact (par_parseRPC cfg).bind fun _ => Par.pure rfl
  · exact par_readEmptyStatement.bind fun _ => Par.pure rfl

theorem par_serviceLoop (cfg : Cfg) (il : Option Comment) (n : Nat) (vs : List Visitee) :
    Par (ρ := ρ) (ρ' := ρ') (Machine.Parse.serviceLoop cfg il n vs) (Machine.Parse.serviceLoop cfg il n vs) := by
  induction n generalizing vs with
  | zero => exact Par.fuel
  | succ n ih =>
    unfold Machine.Parse.serviceLoop
    refine par_parseComments.bind fun cs => par_peekKeyword.bind fun t => Par.ite (par_closeBody _ _ _ _) ?_
    exact (par_serviceStmt cfg cs t).bind fun v => (par_maybeScanInlineComment v).bind fun w => ih _

theorem par_parseServiceBody (cfg : Cfg) :
    Par (ρ := ρ) (ρ' := ρ') (Machine.Parse.parseServiceBody cfg) (Machine.Parse.parseServiceBody cfg) := by
  unfold Machine.Parse.parseServiceBody
  exact (par_expect _ _ par_next).bind fun _ => par_parseInlineComment.bind fun il => par_bound.bind fun n =>
    par_serviceLoop cfg il n []

theorem par_parseService (cfg : Cfg) :
    Par (ρ := ρ) (ρ' := ρ') (Machine.Parse.parseService cfg) (Machine.Parse.parseService cfg) := by
  unfold Machine.Parse.parseService
  refine (par_expect _ _ par_nextKeyword).bind fun _ => par_position.bind fun p => ?_
  refine (par_expect _ _ par_next).bind fun _ => par_txt.bind fun x => ?_
  exact (par_parseServiceBody cfg).bind3 fun a b c => Par.pure rfl

/-! ## Files -/

theorem par_protoStmt (cfg : Cfg) (cs : List Comment) (t : Token) :
    Par (ρ := ρ) (ρ' := ρ') (Machine.Parse.protoStmt cfg cs t) (Machine.Parse.protoStmt cfg cs t) := by
  unfold Machine.Parse.protoStmt
  cases t <;> dsimp only <;>
    first
      | with_reducible exact par_readEmptyStatement.bind fun _ => Par.pure rfl
      | with_reducible exact par_parseImport.bind fun _ => Par.pure rfl
      | with_reducible exact par_parsePackage.bind fun _ => Par.pure rfl
      | with_reducible exact (par_parseOption cfg).bind fun _ => Par.pure rfl
      | with_reducible exact (par_parseMessage cfg).bind fun _ => Par.pure rfl
      | with_reducible exact (par_parseEnum cfg).bind fun _ => Par.pure rfl
      | with_reducible exact (par_parseService cfg).bind fun _ => Par.pure rfl
      | with_reducible exact (par_parseExtend cfg).bind fun _ => Par.pure rfl

theorem par_protoLoop (cfg : Cfg) (n : Nat) (vs : List Visitee) :
    Par (ρ := ρ) (ρ' := ρ') (Machine.Parse.protoLoop cfg n vs) (Machine.Parse.protoLoop cfg n vs) := by
  induction n generalizing vs with
  | zero => exact Par.fuel
  | succ n ih =>
    unfold Machine.Parse.protoLoop
    refine par_parseComments.bind fun cs => par_eof.bind fun b => Par.ite (Par.pure rfl) ?_
    refine par_peekKeyword.bind fun t => (par_protoStmt cfg cs t).bind2 fun v w => ?_
    exact (par_maybeScanInlineComment _).bind fun w => ih _

theorem par_parseProto (cfg : Cfg) :
    Par (ρ := ρ) (ρ' := ρ') (Machine.Parse.parseProto cfg) (Machine.Parse.parseProto cfg) := by
  unfold Machine.Parse.parseProto
  refine par_parseBOM.bind fun _ => par_parseComments.bind fun cs => (par_syntaxPart cs).bind fun s => ?_
  refine (par_editionPart cs).bind fun e => (par_protoLoop cfg cfg.fuel []).bind fun b => ?_
  exact par_position.bind fun p => Par.pure rfl

end Verif.Par
