import Verif.Proofs.MachineParse

set_option backward.isDefEq.respectTransparency false
set_option backward.dsimp.instances true

/-!
# Blocks on the concrete state and on the ideal cursor
-/

namespace Verif.Parser

open Verif Spec Lexer Props

variable {ρ : Type} [Source ρ]

/-- What the body parsers return on the concrete state. -/
def bodyP (b : Body) : Machine.Parse.Body := (b.1, b.2.1, b.2.2.p)

theorem ref_recoverEmpty (e : Err) :
    Ref (ρ := ρ) (fun a => a) (recoverEmpty e) (Machine.Parse.recoverEmpty e) := by
  unfold recoverEmpty Machine.Parse.recoverEmpty
  exact ref_unNext.bind fun _ => Ref.bind_attempt ref_readEmptyStatement (fun _ => Ref.pure rfl) fun _ => Ref.throw
macro_rules | `(tactic| reflem) => `(tactic| exact ref_recoverEmpty _)

theorem ref_recoverK (calm : Bool) (e : Err) :
    Ref (ρ := ρ) (fun a => a) (recoverK calm e) (Machine.Parse.recoverEmpty e) := by
  cases calm
  · exact ref_recoverEmpty e
  · exact Ref.fuel

theorem ref_closeBody (cfg : Cfg) (cs : List Comment) (vs : List Visitee) (il : Option Comment) :
    Ref (ρ := ρ) bodyP (closeBody cfg cs vs il) (Machine.Parse.closeBody cfg cs vs il) := by
  unfold closeBody Machine.Parse.closeBody; ref
macro_rules | `(tactic| reflem) => `(tactic| exact ref_closeBody _ _ _ _)

/-! ## Enums -/

theorem ref_parseEnumValueOptions (cfg : Cfg) :
    Ref (ρ := ρ) (fun a => a) (parseEnumValueOptions cfg) (Machine.Parse.parseEnumValueOptions cfg) := by
  unfold parseEnumValueOptions Machine.Parse.parseEnumValueOptions; ref
macro_rules | `(tactic| reflem) => `(tactic| exact ref_parseEnumValueOptions _)

theorem ref_parseSign : Ref (ρ := ρ) (fun a => a) parseSign Machine.Parse.parseSign := by
  unfold parseSign Machine.Parse.parseSign; ref
macro_rules | `(tactic| reflem) => `(tactic| exact ref_parseSign)

theorem ref_parseEnumField (cfg : Cfg) :
    Ref (ρ := ρ) (fun a => a) (parseEnumField cfg) (Machine.Parse.parseEnumField cfg) := by
  unfold parseEnumField Machine.Parse.parseEnumField; ref

theorem ref_enumStmt (cfg : Cfg) (cs : List Comment) (t : Token) :
    Ref (ρ := ρ) (fun a => a) (enumStmt cfg cs t) (Machine.Parse.enumStmt cfg cs t) := by
  unfold enumStmt Machine.Parse.enumStmt
  refine Ref.ite ?_ (Ref.ite ?_ ?_)
  · exact (ref_parseOption cfg).bind fun _ => Ref.pure rfl
  · exact ref_parseReserved.bind fun _ => Ref.pure rfl
  · exact Ref.bind_attempt (ref_parseEnumField cfg) (fun _ => Ref.pure rfl) fun e => ref_recoverEmpty e

theorem ref_enumLoop (cfg : Cfg) (il : Option Comment) (n : Nat) (vs : List Visitee) :
    Ref (ρ := ρ) bodyP (enumLoop cfg il n vs) (Machine.Parse.enumLoop cfg il n vs) := by
  induction n generalizing vs with
  | zero => exact Ref.fuel
  | succ n ih =>
    unfold enumLoop Machine.Parse.enumLoop
    refine ref_parseComments.bind fun cs => ref_peekKeyword.bind fun t => Ref.ite (ref_closeBody _ _ _ _) ?_
    exact (ref_enumStmt cfg cs t).bind fun v => (ref_maybeScanInlineComment v).bind fun w => ih _

theorem ref_parseEnumBody (cfg : Cfg) :
    Ref (ρ := ρ) bodyP (parseEnumBody cfg) (Machine.Parse.parseEnumBody cfg) := by
  unfold parseEnumBody Machine.Parse.parseEnumBody
  exact (ref_expect _ _ ref_next).bind fun _ => ref_parseInlineComment.bind fun il => ref_bound.bind fun n =>
    ref_enumLoop cfg il n []

theorem ref_parseEnum (cfg : Cfg) : Ref (ρ := ρ) (fun a => a) (parseEnum cfg) (Machine.Parse.parseEnum cfg) := by
  unfold parseEnum Machine.Parse.parseEnum
  refine (ref_expect _ _ (ref_nextWith _)).bind fun _ => ref_position.bind fun p => ?_
  refine (ref_expect _ _ ref_next).bind fun _ => ref_txt.bind fun x => ?_
  exact (ref_parseEnumBody cfg).bind3 fun a b c => Ref.pure rfl

/-! ## Extends -/

theorem ref_extendStmt (cfg : Cfg) (cs : List Comment) :
    Ref (ρ := ρ) (fun a => a) (extendStmt cfg cs) (Machine.Parse.extendStmt cfg cs) := by
  unfold extendStmt Machine.Parse.extendStmt
  exact Ref.bind_attempt (ref_parseField cfg) (fun _ => Ref.pure rfl) fun e => ref_recoverEmpty e

theorem ref_extendLoop (cfg : Cfg) (il : Option Comment) (n : Nat) (vs : List Visitee) :
    Ref (ρ := ρ) bodyP (extendLoop cfg il n vs) (Machine.Parse.extendLoop cfg il n vs) := by
  induction n generalizing vs with
  | zero => exact Ref.fuel
  | succ n ih =>
    unfold extendLoop Machine.Parse.extendLoop
    refine ref_parseComments.bind fun cs => ref_peekKeyword.bind fun t => Ref.ite (ref_closeBody _ _ _ _) ?_
    exact (ref_extendStmt cfg cs).bind fun v => (ref_maybeScanInlineComment v).bind fun w => ih _

theorem ref_parseExtendBody (cfg : Cfg) :
    Ref (ρ := ρ) bodyP (parseExtendBody cfg) (Machine.Parse.parseExtendBody cfg) := by
  unfold parseExtendBody Machine.Parse.parseExtendBody
  refine (ref_expect _ _ ref_next).bind fun _ => ref_parseInlineComment.bind fun il => ?_
  refine ref_next.bind fun _ => ref_tok.bind fun t => Ref.ite ?_ ?_
  · exact (ref_blockLastPos cfg).bind fun p => Ref.pure rfl
  · exact ref_unNext.bind fun _ => ref_bound.bind fun n => ref_extendLoop cfg il n []

theorem ref_parseExtend (cfg : Cfg) :
    Ref (ρ := ρ) (fun a => a) (parseExtend cfg) (Machine.Parse.parseExtend cfg) := by
  unfold parseExtend Machine.Parse.parseExtend
  refine (ref_expect _ _ (ref_nextWith _)).bind fun _ => ref_position.bind fun p => ?_
  refine ref_readMessageType.bind2 fun x y => ?_
  exact (ref_parseExtendBody cfg).bind3 fun a b c => Ref.pure rfl

/-! ## Groups -/

theorem ref_peekGroupCurly : Ref (ρ := ρ) (fun a => a) peekGroupCurly Machine.Parse.peekGroupCurly := by
  unfold peekGroupCurly Machine.Parse.peekGroupCurly; ref

theorem ref_peekGroupNumber : Ref (ρ := ρ) (fun a => a) peekGroupNumber Machine.Parse.peekGroupNumber := by
  unfold peekGroupNumber Machine.Parse.peekGroupNumber
  refine Ref.bind_attempt ref_parseFieldNumber (fun a => ?_) fun e => ?_
  · refine ref_rawText.bind fun r => ?_
    exact ref_peekGroupCurly.bind fun b => (ref_unNextTo r).bind fun _ => Ref.pure rfl
  · exact ref_rawText.bind fun r => (ref_unNextTo r).bind fun _ => Ref.pure rfl

theorem ref_peekGroupEquals : Ref (ρ := ρ) (fun a => a) peekGroupEquals Machine.Parse.peekGroupEquals := by
  unfold peekGroupEquals Machine.Parse.peekGroupEquals
  refine ref_next.bind fun _ => ref_rawText.bind fun r => ref_tok.bind fun t => Ref.ite ?_ ?_
  · exact (ref_unNextTo r).bind fun _ => Ref.pure rfl
  · exact ref_peekGroupNumber.bind fun b => (ref_unNextTo r).bind fun _ => Ref.pure rfl

theorem ref_peekGroupName : Ref (ρ := ρ) (fun a => a) peekGroupName Machine.Parse.peekGroupName := by
  unfold peekGroupName Machine.Parse.peekGroupName
  refine ref_next.bind fun _ => ref_rawText.bind fun r => ref_tok.bind fun t => ref_txt.bind fun x =>
    Ref.ite ?_ (Ref.ite ?_ ?_)
  · exact (ref_unNextTo r).bind fun _ => Ref.pure rfl
  · exact (ref_unNextTo r).bind fun _ => Ref.pure rfl
  · exact ref_peekGroupEquals.bind fun b => (ref_unNextTo r).bind fun _ => Ref.pure rfl

theorem ref_peekGroupKeyword : Ref (ρ := ρ) (fun a => a) peekGroupKeyword Machine.Parse.peekGroupKeyword := by
  unfold peekGroupKeyword Machine.Parse.peekGroupKeyword
  refine (ref_nextWith _).bind fun _ => ref_rawText.bind fun r => ref_tok.bind fun t => Ref.ite ?_ ?_
  · exact (ref_unNextTo r).bind fun _ => Ref.pure rfl
  · exact ref_peekGroupName.bind fun b => (ref_unNextTo r).bind fun _ => Ref.pure rfl

theorem ref_peekIsGroup : Ref (ρ := ρ) (fun a => a) peekIsGroup Machine.Parse.peekIsGroup := by
  unfold peekIsGroup Machine.Parse.peekIsGroup
  refine (ref_nextWith _).bind fun _ => ref_tok.bind fun t => Ref.ite ?_ ?_
  · exact ref_rawText.bind fun r => ref_peekGroupKeyword.bind fun b => (ref_unNextTo r).bind fun _ => Ref.pure rfl
  · exact ref_unNext.bind fun _ => ref_peekGroupKeyword

section
variable {body : P Body} {body' : MP ρ Machine.Parse.Body} (hb : Ref bodyP body body')
include hb

theorem ref_parseGroupFieldWith :
    Ref (fun a => a) (parseGroupFieldWith body) (Machine.Parse.parseGroupFieldWith body') := by
  unfold parseGroupFieldWith Machine.Parse.parseGroupFieldWith
  refine (ref_nextWith _).bind fun _ => ref_position.bind fun p => ref_parseLabel.bind fun lb => ?_
  refine (ref_expect _ _ (ref_nextWith _)).bind fun _ => (ref_expect _ _ ref_next).bind fun _ => ?_
  refine ref_txt.bind fun x => Ref.ite (Lexer.ref_perr _) ?_
  refine (ref_expect _ _ ref_next).bind fun _ => (ref_orUnexpected _ ref_parseFieldNumber).bind fun n => ?_
  exact hb.bind3 fun a b c => Ref.pure rfl

theorem ref_parseMessageWith :
    Ref (fun a => a) (parseMessageWith body) (Machine.Parse.parseMessageWith body') := by
  unfold parseMessageWith Machine.Parse.parseMessageWith
  refine (ref_expect _ _ (ref_nextWith _)).bind fun _ => ref_position.bind fun p => ?_
  refine (ref_expect _ _ ref_next).bind fun _ => ref_txt.bind fun x => ?_
  exact hb.bind3 fun a b c => Ref.pure rfl

variable (calm : Bool) (cfg : Cfg)

theorem ref_fieldStmtK (cs : List Comment) :
    Ref (fun a => a) (fieldStmtK calm cfg body cs) (Machine.Parse.fieldStmt cfg body' cs) := by
  unfold fieldStmtK Machine.Parse.fieldStmt
  refine ref_peekIsGroup.bind fun b => Ref.ite ?_ ?_
  · exact Ref.bind_attempt (ref_parseGroupFieldWith hb) (fun _ => Ref.pure rfl) fun e => ref_recoverK calm e
  · exact Ref.bind_attempt (ref_parseField cfg) (fun _ => Ref.pure rfl) fun e => ref_recoverEmpty e

theorem ref_messageStmtK (cs : List Comment) (t : Token) :
    Ref (fun a => a) (messageStmtK calm cfg body cs t) (Machine.Parse.messageStmt cfg body' cs t) := by
  unfold messageStmtK Machine.Parse.messageStmt
  cases t <;> dsimp only <;>
    first
      | with_reducible exact ref_fieldStmtK hb calm cfg cs
      | with_reducible exact (ref_parseEnum cfg).bind fun _ => Ref.pure rfl
      | with_reducible exact (ref_parseMessageWith hb).bind fun _ => Ref.pure rfl
      | with_reducible exact (ref_parseOption cfg).bind fun _ => Ref.pure rfl
      | with_reducible exact (ref_parseOneof cfg).bind fun _ => Ref.pure rfl
      | with_reducible exact (ref_parseMapField cfg).bind fun _ => Ref.pure rfl
      | with_reducible exact (ref_parseExtend cfg).bind fun _ => Ref.pure rfl
      | with_reducible exact ref_parseReserved.bind fun _ => Ref.pure rfl
      | with_reducible exact ref_parseExtensions.bind fun _ => Ref.pure rfl

theorem ref_messageLoopK (il : Option Comment) (n : Nat) (vs : List Visitee) :
    Ref bodyP (messageLoopK calm cfg body il n vs) (Machine.Parse.messageLoop cfg body' il n vs) := by
  induction n generalizing vs with
  | zero => exact Ref.fuel
  | succ n ih =>
    unfold messageLoopK Machine.Parse.messageLoop
    refine ref_parseComments.bind fun cs => ref_peekKeyword.bind fun t => Ref.ite (ref_closeBody _ _ _ _) ?_
    exact (ref_messageStmtK hb calm cfg cs t).bind fun v => (ref_maybeScanInlineComment v).bind fun w => ih _

theorem ref_messageBodyWithK :
    Ref bodyP (messageBodyWithK calm cfg body) (Machine.Parse.messageBodyWith cfg body') := by
  unfold messageBodyWithK Machine.Parse.messageBodyWith
  refine (ref_expect _ _ ref_next).bind fun _ => ref_parseInlineComment.bind fun il => ?_
  refine ref_next.bind fun _ => ref_tok.bind fun t => Ref.ite ?_ ?_
  · exact (ref_blockLastPos cfg).bind fun p => Ref.pure rfl
  · exact ref_unNext.bind fun _ => ref_messageLoopK hb calm cfg il _ []

end

theorem ref_messageBodyK (calm : Bool) (cfg : Cfg) (d : Nat) :
    Ref (ρ := ρ) bodyP (messageBodyK calm cfg d) (Machine.Parse.messageBody cfg d) := by
  induction d with
  | zero => exact Ref.fuel
  | succ d ih => exact ref_messageBodyWithK ih calm cfg

theorem ref_parseMessageK (calm : Bool) (cfg : Cfg) :
    Ref (ρ := ρ) (fun a => a) (parseMessageK calm cfg) (Machine.Parse.parseMessage cfg) :=
  ref_parseMessageWith (ref_messageBodyK calm cfg _)

/-! ## What services are made of -/

theorem ref_parseRPCMessage : Ref (ρ := ρ) (fun a => a) parseRPCMessage Machine.Parse.parseRPCMessage := by
  unfold parseRPCMessage Machine.Parse.parseRPCMessage; ref

theorem ref_rpcOptionsStmt (cfg : Cfg) :
    Ref (ρ := ρ) (fun a => a) (rpcOptionsStmt cfg) (Machine.Parse.rpcOptionsStmt cfg) := by
  unfold rpcOptionsStmt Machine.Parse.rpcOptionsStmt; ref

theorem ref_rpcOptionsLoop (cfg : Cfg) (n : Nat) (x : List OptionStmt) :
    Ref (ρ := ρ) (fun a => a) (rpcOptionsLoop cfg n x) (Machine.Parse.rpcOptionsLoop cfg n x) := by
  induction n generalizing x with
  | zero => exact Ref.fuel
  | succ n ih =>
    unfold rpcOptionsLoop Machine.Parse.rpcOptionsLoop
    refine (ref_rpcOptionsStmt cfg).bind fun os => ref_next.bind fun _ => ref_tok.bind fun t => ?_
    exact Ref.ite (Ref.pure rfl) (ref_unNext.bind fun _ => ih _)

theorem ref_parseRPCOptions (cfg : Cfg) :
    Ref (ρ := ρ) (fun a => a) (parseRPCOptions cfg) (Machine.Parse.parseRPCOptions cfg) := by
  unfold parseRPCOptions Machine.Parse.parseRPCOptions
  refine (ref_expect _ _ ref_next).bind fun _ => ref_parseInlineComment.bind fun il => ref_bound.bind fun n => ?_
  exact (ref_rpcOptionsLoop cfg n []).bind fun os => Ref.pure rfl

/-! ## The head of a file -/

theorem ref_parseBOM : Ref (ρ := ρ) (fun a => a) parseBOM Machine.Parse.parseBOM := by
  unfold parseBOM Machine.Parse.parseBOM; ref

theorem ref_syntaxPart (cs : List Comment) :
    Ref (ρ := ρ) (fun a => a) (syntaxPart cs) (Machine.Parse.syntaxPart cs) := by
  unfold syntaxPart Machine.Parse.syntaxPart
  refine ref_parseSyntax.bind fun a => ?_
  cases a with
  | none => exact Ref.pure rfl
  | some x => exact ref_parseInlineComment.bind fun _ => Ref.pure rfl

theorem ref_editionPart (cs : List Comment) :
    Ref (ρ := ρ) (fun a => a) (editionPart cs) (Machine.Parse.editionPart cs) := by
  unfold editionPart Machine.Parse.editionPart
  refine ref_parseEdition.bind fun a => ?_
  cases a with
  | none => exact Ref.pure rfl
  | some x => exact ref_parseInlineComment.bind fun _ => Ref.pure rfl

end Verif.Parser
