import Verif.Proofs.MachineAlike

set_option backward.isDefEq.respectTransparency false
set_option backward.dsimp.instances true

/-!
# The functions of the parser on two readers
-/

namespace Verif.Par

open Verif

variable {ρ ρ' : Type} [Source ρ] [Source ρ'] [Linked ρ ρ']

theorem par_orUnexpected {α : Type} {m : MP ρ α} {m' : MP ρ' α} (e : String) (h : Par m m') :
    Par (Machine.Parse.orUnexpected m e) (Machine.Parse.orUnexpected m' e) :=
  Par.bind_attempt h (fun _ => Par.pure rfl) fun _ => Par.par_perr _

theorem par_expect {m : MP ρ Unit} {m' : MP ρ' Unit} (t : Token) (e : String) (h : Par m m') :
    Par (Machine.Parse.expect m t e) (Machine.Parse.expect m' t e) := by
  refine h.bind fun _ => ?_
  par

macro_rules | `(tactic| parlem) => `(tactic| (with_reducible apply par_expect; parlem))
macro_rules | `(tactic| parlem) => `(tactic| (with_reducible apply par_orUnexpected; parlem))

theorem par_peekKeyword : Par (ρ := ρ) (ρ' := ρ') Machine.Parse.peekKeyword Machine.Parse.peekKeyword := by
  unfold Machine.Parse.peekKeyword; par
macro_rules | `(tactic| parlem) => `(tactic| with_reducible exact par_peekKeyword)

theorem par_eof : Par (ρ := ρ) (ρ' := ρ') Machine.Parse.isEOF Machine.Parse.isEOF := by
  unfold Machine.Parse.isEOF; par
macro_rules | `(tactic| parlem) => `(tactic| with_reducible exact par_eof)

/-! ## Comments -/

theorem par_mkComment (t : Str) (q : Position) :
    Par (ρ := ρ) (ρ' := ρ') (Machine.Parse.mkComment t q) (Machine.Parse.mkComment t q) :=
  fun _ => ⟨id, fun r h => .inr ⟨rfl, r, rfl, h⟩⟩
macro_rules | `(tactic| parlem) => `(tactic| with_reducible exact par_mkComment _ _)

theorem par_parseComment : Par (ρ := ρ) (ρ' := ρ') Machine.Parse.parseComment Machine.Parse.parseComment := by
  unfold Machine.Parse.parseComment
  refine (par_nextWith _).bind fun _ => par_tok.bind fun t => Par.ite (by par) ?_
  refine Par.bind_attempt (Par.par_perr _) (fun a => ?_) (fun e => ?_)
  · exact par_unNext.bind fun _ => Par.pure rfl
  · exact par_unNext.bind fun _ => Par.throw

macro_rules | `(tactic| parlem) => `(tactic| with_reducible exact par_parseComment)

theorem par_parseCommentsLoop (n : Nat) (cs : List Comment) :
    Par (ρ := ρ) (ρ' := ρ') (Machine.Parse.parseCommentsLoop n cs) (Machine.Parse.parseCommentsLoop n cs) := by
  induction n generalizing cs with
  | zero => exact Par.fuel
  | succ n ih =>
    unfold Machine.Parse.parseCommentsLoop
    exact Par.bind_attempt par_parseComment (fun a => ih _) fun e => Par.pure rfl
macro_rules | `(tactic| parlem) => `(tactic| with_reducible exact par_parseCommentsLoop _ _)

theorem par_parseComments : Par (ρ := ρ) (ρ' := ρ') Machine.Parse.parseComments Machine.Parse.parseComments := by
  unfold Machine.Parse.parseComments; par
macro_rules | `(tactic| parlem) => `(tactic| with_reducible exact par_parseComments)

theorem par_embeddedLoop (cs : List (Str × Position)) (acc : List Comment) :
    Par (ρ := ρ) (ρ' := ρ') (Machine.Parse.embeddedLoop cs acc) (Machine.Parse.embeddedLoop cs acc) := by
  induction cs generalizing acc with
  | nil => exact Par.pure rfl
  | cons c cs ih => exact (par_mkComment c.1 c.2).bind fun _ => ih _

theorem par_findEmbeddedComments (a b : Position) :
    Par (ρ := ρ) (ρ' := ρ') (Machine.Parse.findEmbeddedComments a b) (Machine.Parse.findEmbeddedComments a b) :=
  fun k => par_embeddedLoop (Machine.Lex.findMidComments k a b) [] k
macro_rules | `(tactic| parlem) => `(tactic| with_reducible exact par_findEmbeddedComments _ _)

theorem par_parseInlineComment : Par (ρ := ρ) (ρ' := ρ') Machine.Parse.parseInlineComment Machine.Parse.parseInlineComment := by
  unfold Machine.Parse.parseInlineComment
  refine par_position.bind fun p => Par.bind_attempt par_parseComment (fun a => ?_) fun e => Par.pure rfl
  dsimp only
  par
macro_rules | `(tactic| parlem) => `(tactic| with_reducible exact par_parseInlineComment)

theorem par_setInlineComment (v : Visitee) (c : Comment) :
    Par (ρ := ρ) (ρ' := ρ') (Machine.Parse.setInlineComment v c) (Machine.Parse.setInlineComment v c) := by
  cases v <;> first | exact Par.pure rfl | exact Par.panic
macro_rules | `(tactic| parlem) => `(tactic| with_reducible exact par_setInlineComment _ _)

theorem par_maybeScanInlineComment (v : Visitee) :
    Par (ρ := ρ) (ρ' := ρ') (Machine.Parse.maybeScanInlineComment v) (Machine.Parse.maybeScanInlineComment v) := by
  unfold Machine.Parse.maybeScanInlineComment
  refine par_parseInlineComment.bind fun a => ?_
  cases a with
  | none => exact Par.pure rfl
  | some c => exact par_setInlineComment _ _
macro_rules | `(tactic| parlem) => `(tactic| with_reducible exact par_maybeScanInlineComment _)

theorem par_blockLastPos (cfg : Cfg) :
    Par (ρ := ρ) (ρ' := ρ') (Machine.Parse.blockLastPos cfg) (Machine.Parse.blockLastPos cfg) := by
  unfold Machine.Parse.blockLastPos; par
macro_rules | `(tactic| parlem) => `(tactic| with_reducible exact par_blockLastPos _)

/-! ## Simple statements -/

theorem par_parseSyntax : Par (ρ := ρ) (ρ' := ρ') Machine.Parse.parseSyntax Machine.Parse.parseSyntax := by
  unfold Machine.Parse.parseSyntax; par
macro_rules | `(tactic| parlem) => `(tactic| with_reducible exact par_parseSyntax)

theorem par_parseEdition : Par (ρ := ρ) (ρ' := ρ') Machine.Parse.parseEdition Machine.Parse.parseEdition := by
  unfold Machine.Parse.parseEdition; par
macro_rules | `(tactic| parlem) => `(tactic| with_reducible exact par_parseEdition)

theorem par_parsePackage : Par (ρ := ρ) (ρ' := ρ') Machine.Parse.parsePackage Machine.Parse.parsePackage := by
  unfold Machine.Parse.parsePackage; par
macro_rules | `(tactic| parlem) => `(tactic| with_reducible exact par_parsePackage)

theorem par_parseImportModifier :
    Par (ρ := ρ) (ρ' := ρ') Machine.Parse.parseImportModifier Machine.Parse.parseImportModifier := by
  unfold Machine.Parse.parseImportModifier; par
macro_rules | `(tactic| parlem) => `(tactic| with_reducible exact par_parseImportModifier)

theorem par_parseImport : Par (ρ := ρ) (ρ' := ρ') Machine.Parse.parseImport Machine.Parse.parseImport := by
  unfold Machine.Parse.parseImport; par
macro_rules | `(tactic| parlem) => `(tactic| with_reducible exact par_parseImport)

/-! ## Options -/

theorem par_optionNameDot (cfg : Cfg) :
    Par (ρ := ρ) (ρ' := ρ') (Machine.Parse.optionNameDot cfg) (Machine.Parse.optionNameDot cfg) := by
  unfold Machine.Parse.optionNameDot; par
macro_rules | `(tactic| parlem) => `(tactic| with_reducible exact par_optionNameDot _)

theorem par_optionNamePart (cfg : Cfg) (e : String) :
    Par (ρ := ρ) (ρ' := ρ') (Machine.Parse.optionNamePart cfg e) (Machine.Parse.optionNamePart cfg e) := by
  unfold Machine.Parse.optionNamePart; par
macro_rules | `(tactic| parlem) => `(tactic| with_reducible exact par_optionNamePart _ _)

theorem par_optionNameLoop (cfg : Cfg) (n : Nat) (x : Str) :
    Par (ρ := ρ) (ρ' := ρ') (Machine.Parse.optionNameLoop cfg n x) (Machine.Parse.optionNameLoop cfg n x) := by
  induction n generalizing x with
  | zero => exact Par.fuel
  | succ n ih => unfold Machine.Parse.optionNameLoop; par; all_goals exact ih _
macro_rules | `(tactic| parlem) => `(tactic| with_reducible exact par_optionNameLoop _ _ _)

theorem par_parseOptionName (cfg : Cfg) :
    Par (ρ := ρ) (ρ' := ρ') (Machine.Parse.parseOptionName cfg) (Machine.Parse.parseOptionName cfg) := by
  unfold Machine.Parse.parseOptionName; par
macro_rules | `(tactic| parlem) => `(tactic| with_reducible exact par_parseOptionName _)

theorem par_cloudSeparator (cfg : Cfg) :
    Par (ρ := ρ) (ρ' := ρ') (Machine.Parse.cloudSeparator cfg) (Machine.Parse.cloudSeparator cfg) := by
  unfold Machine.Parse.cloudSeparator; par
macro_rules | `(tactic| parlem) => `(tactic| with_reducible exact par_cloudSeparator _)

theorem par_cloudNeedSemi (cfg : Cfg) (b : Bool) :
    Par (ρ := ρ) (ρ' := ρ') (Machine.Parse.cloudNeedSemi cfg b) (Machine.Parse.cloudNeedSemi cfg b) := by
  unfold Machine.Parse.cloudNeedSemi; par
macro_rules | `(tactic| parlem) => `(tactic| with_reducible exact par_cloudNeedSemi _ _)

theorem par_cloudClose (cfg : Cfg) :
    Par (ρ := ρ) (ρ' := ρ') (Machine.Parse.cloudClose cfg) (Machine.Parse.cloudClose cfg) := by
  unfold Machine.Parse.cloudClose; par
macro_rules | `(tactic| parlem) => `(tactic| with_reducible exact par_cloudClose _)

theorem par_cloudLoop (cfg : Cfg) {c : MP ρ Str} {c' : MP ρ' Str} (hc : Par c c') (n : Nat) (x : Str) :
    Par (Machine.Parse.cloudLoop cfg c n x) (Machine.Parse.cloudLoop cfg c' n x) := by
  induction n generalizing x with
  | zero => exact Par.fuel
  | succ n ih =>
    unfold Machine.Parse.cloudLoop
    refine (par_expect _ _ par_next).bind fun _ => par_txt.bind fun y => ?_
    refine (par_cloudSeparator cfg).bind2 fun a b => hc.bind fun d => ?_
    refine (par_cloudNeedSemi cfg _).bind fun e => (par_cloudClose cfg).bind2 fun f g => ?_
    exact Par.ite (Par.pure rfl) (ih _)

theorem par_parseCloud (cfg : Cfg) {c : MP ρ Str} {c' : MP ρ' Str} (hc : Par c c') :
    Par (Machine.Parse.parseCloud cfg c) (Machine.Parse.parseCloud cfg c') := by
  unfold Machine.Parse.parseCloud
  par
  exact par_cloudLoop cfg hc _ _

theorem par_constantsLoop {c : MP ρ Str} {c' : MP ρ' Str} (hc : Par c c') (n : Nat) (x : Str) :
    Par (Machine.Parse.constantsLoop c n x) (Machine.Parse.constantsLoop c' n x) := by
  induction n generalizing x with
  | zero => exact Par.fuel
  | succ n ih =>
    unfold Machine.Parse.constantsLoop
    refine par_next.bind fun _ => par_tok.bind fun t => Par.ite (by par) ?_
    exact (par_orUnexpected _ hc).bind fun y => ih _

theorem par_parseOptionConstants {c : MP ρ Str} {c' : MP ρ' Str} (hc : Par c c') :
    Par (Machine.Parse.parseOptionConstants c) (Machine.Parse.parseOptionConstants c') := by
  unfold Machine.Parse.parseOptionConstants
  exact hc.bind fun y => par_bound.bind fun n => par_constantsLoop hc _ _

theorem par_optionConstant (cfg : Cfg) (d : Nat) :
    Par (ρ := ρ) (ρ' := ρ') (Machine.Parse.optionConstant cfg d) (Machine.Parse.optionConstant cfg d) := by
  induction d with
  | zero => exact Par.fuel
  | succ d ih =>
    unfold Machine.Parse.optionConstant
    par
    · exact par_parseCloud cfg ih
    · exact (par_parseOptionConstants ih).bind fun y => par_next.bind fun _ => Par.pure rfl
macro_rules | `(tactic| parlem) => `(tactic| with_reducible exact par_optionConstant _ _)

theorem par_parseOptionConstant (cfg : Cfg) :
    Par (ρ := ρ) (ρ' := ρ') (Machine.Parse.parseOptionConstant cfg) (Machine.Parse.parseOptionConstant cfg) := by
  unfold Machine.Parse.parseOptionConstant; par
macro_rules | `(tactic| parlem) => `(tactic| with_reducible exact par_parseOptionConstant _)

theorem par_parseOption (cfg : Cfg) :
    Par (ρ := ρ) (ρ' := ρ') (Machine.Parse.parseOption cfg) (Machine.Parse.parseOption cfg) := by
  unfold Machine.Parse.parseOption; par
macro_rules | `(tactic| parlem) => `(tactic| with_reducible exact par_parseOption _)

/-! ## Fields -/

theorem par_parseType : Par (ρ := ρ) (ρ' := ρ') Machine.Parse.parseType Machine.Parse.parseType := by
  unfold Machine.Parse.parseType; par
macro_rules | `(tactic| parlem) => `(tactic| with_reducible exact par_parseType)

theorem par_parseFieldNumber : Par (ρ := ρ) (ρ' := ρ') Machine.Parse.parseFieldNumber Machine.Parse.parseFieldNumber := by
  unfold Machine.Parse.parseFieldNumber; par
macro_rules | `(tactic| parlem) => `(tactic| with_reducible exact par_parseFieldNumber)

theorem par_parseFieldOption (cfg : Cfg) :
    Par (ρ := ρ) (ρ' := ρ') (Machine.Parse.parseFieldOption cfg) (Machine.Parse.parseFieldOption cfg) := by
  unfold Machine.Parse.parseFieldOption; par
macro_rules | `(tactic| parlem) => `(tactic| with_reducible exact par_parseFieldOption _)

theorem par_fieldOptionsLoop (cfg : Cfg) (e : String) (n : Nat) (x : List FieldOption) :
    Par (ρ := ρ) (ρ' := ρ') (Machine.Parse.fieldOptionsLoop cfg e n x) (Machine.Parse.fieldOptionsLoop cfg e n x) := by
  induction n generalizing x with
  | zero => exact Par.fuel
  | succ n ih => unfold Machine.Parse.fieldOptionsLoop; par; all_goals exact ih _
macro_rules | `(tactic| parlem) => `(tactic| with_reducible exact par_fieldOptionsLoop _ _ _ _)

theorem par_parseFieldOptions (cfg : Cfg) :
    Par (ρ := ρ) (ρ' := ρ') (Machine.Parse.parseFieldOptions cfg) (Machine.Parse.parseFieldOptions cfg) := by
  unfold Machine.Parse.parseFieldOptions; par
macro_rules | `(tactic| parlem) => `(tactic| with_reducible exact par_parseFieldOptions _)

theorem par_parseFieldOptionsOption (cfg : Cfg) :
    Par (ρ := ρ) (ρ' := ρ') (Machine.Parse.parseFieldOptionsOption cfg) (Machine.Parse.parseFieldOptionsOption cfg) := by
  unfold Machine.Parse.parseFieldOptionsOption; par
macro_rules | `(tactic| parlem) => `(tactic| with_reducible exact par_parseFieldOptionsOption _)

theorem par_parseLabel : Par (ρ := ρ) (ρ' := ρ') Machine.Parse.parseLabel Machine.Parse.parseLabel := by
  unfold Machine.Parse.parseLabel; par
macro_rules | `(tactic| parlem) => `(tactic| with_reducible exact par_parseLabel)

theorem par_parseField (cfg : Cfg) :
    Par (ρ := ρ) (ρ' := ρ') (Machine.Parse.parseField cfg) (Machine.Parse.parseField cfg) := by
  unfold Machine.Parse.parseField; par
macro_rules | `(tactic| parlem) => `(tactic| with_reducible exact par_parseField _)

theorem par_parseKeyType : Par (ρ := ρ) (ρ' := ρ') Machine.Parse.parseKeyType Machine.Parse.parseKeyType := by
  unfold Machine.Parse.parseKeyType; par
macro_rules | `(tactic| parlem) => `(tactic| with_reducible exact par_parseKeyType)

theorem par_parseMapField (cfg : Cfg) :
    Par (ρ := ρ) (ρ' := ρ') (Machine.Parse.parseMapField cfg) (Machine.Parse.parseMapField cfg) := by
  unfold Machine.Parse.parseMapField; par
macro_rules | `(tactic| parlem) => `(tactic| with_reducible exact par_parseMapField _)

/-! ## Oneofs -/

theorem par_parseOneofField (cfg : Cfg) :
    Par (ρ := ρ) (ρ' := ρ') (Machine.Parse.parseOneofField cfg) (Machine.Parse.parseOneofField cfg) := by
  unfold Machine.Parse.parseOneofField; par
macro_rules | `(tactic| parlem) => `(tactic| with_reducible exact par_parseOneofField _)

theorem par_parseOneofElement (cfg : Cfg) (cs : List Comment) :
    Par (ρ := ρ) (ρ' := ρ') (Machine.Parse.parseOneofElement cfg cs) (Machine.Parse.parseOneofElement cfg cs) := by
  unfold Machine.Parse.parseOneofElement; par
macro_rules | `(tactic| parlem) => `(tactic| with_reducible exact par_parseOneofElement _ _)

theorem par_oneofLoop (cfg : Cfg) (n : Nat) (x : List OneofField) (y : List OptionStmt) :
    Par (ρ := ρ) (ρ' := ρ') (Machine.Parse.oneofLoop cfg n x y) (Machine.Parse.oneofLoop cfg n x y) := by
  induction n generalizing x y with
  | zero => exact Par.fuel
  | succ n ih =>
    unfold Machine.Parse.oneofLoop
    refine par_parseComments.bind fun cs => Par.bind_attempt par_readEmptyStatement (fun _ => ih _ _) fun e => ?_
    refine (par_parseOneofElement cfg cs).bind fun a => ?_
    cases a with
    | inl o =>
      refine par_next.bind fun _ => par_tok.bind fun t => Par.ite (Par.pure rfl) ?_
      exact par_unNext.bind fun _ => ih _ _
    | inr o =>
      refine par_next.bind fun _ => par_tok.bind fun t => Par.ite (Par.pure rfl) ?_
      exact par_unNext.bind fun _ => ih _ _
macro_rules | `(tactic| parlem) => `(tactic| with_reducible exact par_oneofLoop _ _ _ _)

theorem par_parseOneof (cfg : Cfg) :
    Par (ρ := ρ) (ρ' := ρ') (Machine.Parse.parseOneof cfg) (Machine.Parse.parseOneof cfg) := by
  unfold Machine.Parse.parseOneof; par
macro_rules | `(tactic| parlem) => `(tactic| with_reducible exact par_parseOneof _)

/-! ## Reserved and extensions -/

theorem par_parseRange : Par (ρ := ρ) (ρ' := ρ') Machine.Parse.parseRange Machine.Parse.parseRange := by
  unfold Machine.Parse.parseRange; par
macro_rules | `(tactic| parlem) => `(tactic| with_reducible exact par_parseRange)

theorem par_rangesLoop (n : Nat) (x : List Range) :
    Par (ρ := ρ) (ρ' := ρ') (Machine.Parse.rangesLoop n x) (Machine.Parse.rangesLoop n x) := by
  induction n generalizing x with
  | zero => exact Par.fuel
  | succ n ih => unfold Machine.Parse.rangesLoop; par; all_goals exact ih _
macro_rules | `(tactic| parlem) => `(tactic| with_reducible exact par_rangesLoop _ _)

theorem par_parseRanges : Par (ρ := ρ) (ρ' := ρ') Machine.Parse.parseRanges Machine.Parse.parseRanges := by
  unfold Machine.Parse.parseRanges; par
macro_rules | `(tactic| parlem) => `(tactic| with_reducible exact par_parseRanges)

theorem par_parseQuotedFieldName :
    Par (ρ := ρ) (ρ' := ρ') Machine.Parse.parseQuotedFieldName Machine.Parse.parseQuotedFieldName := by
  unfold Machine.Parse.parseQuotedFieldName; par
macro_rules | `(tactic| parlem) => `(tactic| with_reducible exact par_parseQuotedFieldName)

theorem par_parseFieldName : Par (ρ := ρ) (ρ' := ρ') Machine.Parse.parseFieldName Machine.Parse.parseFieldName := by
  unfold Machine.Parse.parseFieldName
  refine Par.bind_attempt par_parseQuotedFieldName (fun _ => Par.pure rfl) fun e => ?_
  dsimp only
  par
macro_rules | `(tactic| parlem) => `(tactic| with_reducible exact par_parseFieldName)

theorem par_fieldNamesLoop (n : Nat) (x : List Str) :
    Par (ρ := ρ) (ρ' := ρ') (Machine.Parse.fieldNamesLoop n x) (Machine.Parse.fieldNamesLoop n x) := by
  induction n generalizing x with
  | zero => exact Par.fuel
  | succ n ih =>
    unfold Machine.Parse.fieldNamesLoop
    refine par_next.bind fun _ => par_tok.bind fun t => Par.ite ?_ ?_
    · exact par_parseFieldName.bind fun _ => ih _
    · refine par_unNext.bind fun _ => Par.bind_attempt par_parseFieldName (fun _ => ih _) fun e => Par.pure rfl
macro_rules | `(tactic| parlem) => `(tactic| with_reducible exact par_fieldNamesLoop _ _)

theorem par_parseFieldNames : Par (ρ := ρ) (ρ' := ρ') Machine.Parse.parseFieldNames Machine.Parse.parseFieldNames := by
  unfold Machine.Parse.parseFieldNames; par
macro_rules | `(tactic| parlem) => `(tactic| with_reducible exact par_parseFieldNames)

theorem par_parseReservedBody :
    Par (ρ := ρ) (ρ' := ρ') Machine.Parse.parseReservedBody Machine.Parse.parseReservedBody := by
  unfold Machine.Parse.parseReservedBody
  refine Par.bind_attempt par_parseRanges (fun _ => Par.pure rfl) fun e => ?_
  exact Par.bind_attempt par_parseFieldNames (fun _ => Par.pure rfl) fun e => Par.throw
macro_rules | `(tactic| parlem) => `(tactic| with_reducible exact par_parseReservedBody)

theorem par_parseReserved : Par (ρ := ρ) (ρ' := ρ') Machine.Parse.parseReserved Machine.Parse.parseReserved := by
  unfold Machine.Parse.parseReserved; par
macro_rules | `(tactic| parlem) => `(tactic| with_reducible exact par_parseReserved)

theorem par_parseDeclItem (a : Parser.DeclAcc) :
    Par (ρ := ρ) (ρ' := ρ') (Machine.Parse.parseDeclItem a) (Machine.Parse.parseDeclItem a) := by
  unfold Machine.Parse.parseDeclItem
  refine par_tok.bind fun t => Par.ite ?_ (Par.ite ?_ (Par.ite ?_ (Par.ite ?_ (Par.ite ?_ (Par.par_perr _)))))
  · exact (par_expect _ _ par_next).bind fun _ => (par_expect _ _ par_nextNumberLit).bind fun _ => par_txt.bind fun _ =>
      Par.pure rfl
  · exact (par_expect _ _ par_next).bind fun _ => (par_expect _ _ par_nextStrLit).bind fun _ => par_txt.bind fun _ =>
      Par.pure rfl
  · exact (par_expect _ _ par_next).bind fun _ => (par_expect _ _ par_nextStrLit).bind fun _ => par_txt.bind fun _ =>
      Par.pure rfl
  · exact (par_expect _ _ par_next).bind fun _ => (par_expect _ _ par_next).bind fun _ => par_txt.bind fun _ =>
      Par.pure rfl
  · exact (par_expect _ _ par_next).bind fun _ => (par_expect _ _ par_next).bind fun _ => par_txt.bind fun _ =>
      Par.pure rfl
macro_rules | `(tactic| parlem) => `(tactic| with_reducible exact par_parseDeclItem _)

theorem par_declLoop (n : Nat) (x : Parser.DeclAcc) :
    Par (ρ := ρ) (ρ' := ρ') (Machine.Parse.declLoop n x) (Machine.Parse.declLoop n x) := by
  induction n generalizing x with
  | zero => exact Par.fuel
  | succ n ih => unfold Machine.Parse.declLoop; par; all_goals exact ih _
macro_rules | `(tactic| parlem) => `(tactic| with_reducible exact par_declLoop _ _)

theorem par_parseDeclaration : Par (ρ := ρ) (ρ' := ρ') Machine.Parse.parseDeclaration Machine.Parse.parseDeclaration := by
  unfold Machine.Parse.parseDeclaration; par
macro_rules | `(tactic| parlem) => `(tactic| with_reducible exact par_parseDeclaration)

theorem par_declarationsLoop (n : Nat) (x : List Declaration) :
    Par (ρ := ρ) (ρ' := ρ') (Machine.Parse.declarationsLoop n x) (Machine.Parse.declarationsLoop n x) := by
  induction n generalizing x with
  | zero => exact Par.fuel
  | succ n ih => unfold Machine.Parse.declarationsLoop; par; all_goals exact ih _
macro_rules | `(tactic| parlem) => `(tactic| with_reducible exact par_declarationsLoop _ _)

theorem par_parseDeclarations :
    Par (ρ := ρ) (ρ' := ρ') Machine.Parse.parseDeclarations Machine.Parse.parseDeclarations := by
  unfold Machine.Parse.parseDeclarations; par
macro_rules | `(tactic| parlem) => `(tactic| with_reducible exact par_parseDeclarations)

theorem par_parseExtensions : Par (ρ := ρ) (ρ' := ρ') Machine.Parse.parseExtensions Machine.Parse.parseExtensions := by
  unfold Machine.Parse.parseExtensions; par
macro_rules | `(tactic| parlem) => `(tactic| with_reducible exact par_parseExtensions)

end Verif.Par
