import Verif.Proofs.Track

/-!
# Where the cursor is after an error of a parser function
-/

set_option backward.isDefEq.respectTransparency false
set_option backward.dsimp.instances true
set_option linter.unusedSectionVars false

namespace Verif.Parser
open Spec Scanner Lexer

variable {E : Lexer → Prop} {t : Str} [Catch t E]

theorem trk_orUnexpected {α : Type} {m : P α} (s : String) (h : Run (AtEnd t) (Known t) (Known t) m) :
    Run (AtEnd t) (Known t) E (orUnexpected m s) := by
  unfold orUnexpected
  refine Run.attempt h (fun _ => ?_) (fun _ => ?_) <;> dsimp only <;> run
macro_rules | `(tactic| runlem) => `(tactic| (apply trk_orUnexpected; runlem))

theorem trk_expect {m : P Unit} (k : Token) (s : String) (h : Run (AtEnd t) (JustRead t) E m) :
    Run (AtEnd t) (JustRead t) E (expect m k s) := by
  unfold expect
  refine h.bind fun _ => ?_
  run
macro_rules | `(tactic| runlem) => `(tactic| (apply trk_expect; runlem))

theorem trk_peekKeyword : Run (AtEnd t) (Known t) E (peekKeyword) := by unfold peekKeyword; run
macro_rules | `(tactic| runlem) => `(tactic| exact Parser.trk_peekKeyword)

theorem trk_parseComment : Run (AtEnd t) (JustRead t) (Known t) parseComment := by
  unfold parseComment
  refine Run.bind (by runstep) (fun _ => ?_)
  refine Run.bind (by runstep) (fun _ => ?_)
  refine Run.ite (by run) ?_
  refine Run.attempt (Q := fun _ => False) (E' := JustRead t) ?_ (fun _ => ?_) (fun _ => ?_)
  · exact ⟨fun l hl => hl⟩
  · exact ⟨fun l hl => hl.elim⟩
  · run
macro_rules | `(tactic| runlem) => `(tactic| exact Parser.trk_parseComment)

theorem trk_commentsLoop (n : Nat) (cs : List Comment) : Run (AtEnd t) (Known t) E (parseCommentsLoop n cs) := by
  induction n generalizing cs with
  | zero => exact trk_stop _
  | succ n ih => unfold parseCommentsLoop; run
macro_rules | `(tactic| runlem) => `(tactic| exact Parser.trk_commentsLoop _ _)

theorem trk_parseComments : Run (AtEnd t) (Known t) E (parseComments) := by unfold parseComments; run
macro_rules | `(tactic| runlem) => `(tactic| exact Parser.trk_parseComments)

theorem trk_inline : Run (AtEnd t) (Known t) E (parseInlineComment) := by unfold parseInlineComment; run
macro_rules | `(tactic| runlem) => `(tactic| exact Parser.trk_inline)

theorem trk_setInline {P : Lexer → Prop} (v : Visitee) (c : Comment) : Run P P E (setInlineComment v c) := by
  unfold setInlineComment
  split <;> first | exact trk_stop _ | exact trk_pure _ (fun _ h => h)
macro_rules | `(tactic| runlem) => `(tactic| exact Parser.trk_setInline _ _)

theorem trk_maybeScan (v : Visitee) : Run (AtEnd t) (Known t) E (maybeScanInlineComment v) := by unfold maybeScanInlineComment; run
macro_rules | `(tactic| runlem) => `(tactic| exact Parser.trk_maybeScan _)

theorem trk_blockLastPos (cfg : Cfg) : Run (JustRead t) (Known t) E (blockLastPos cfg) := by unfold blockLastPos; run
macro_rules | `(tactic| runlem) => `(tactic| exact Parser.trk_blockLastPos _)

theorem trk_optionNameDot (cfg : Cfg) : Run (AtEnd t) (AtEnd t) E (optionNameDot cfg) := by unfold optionNameDot; run
macro_rules | `(tactic| runlem) => `(tactic| exact Parser.trk_optionNameDot _)

theorem trk_optionNamePart (cfg : Cfg) (s : String) : Run (JustRead t) (Known t) E (optionNamePart cfg s) := by unfold optionNamePart; run
macro_rules | `(tactic| runlem) => `(tactic| exact Parser.trk_optionNamePart _ _)

theorem trk_optionNameLoop (cfg : Cfg) (n : Nat) (w : Str) : Run (AtEnd t) (Known t) E (optionNameLoop cfg n w) := by
  induction n generalizing w with
  | zero => exact trk_stop _
  | succ n ih => unfold optionNameLoop; run
macro_rules | `(tactic| runlem) => `(tactic| exact Parser.trk_optionNameLoop _ _ _)

theorem trk_optionName (cfg : Cfg) : Run (AtEnd t) (Known t) E (parseOptionName cfg) := by unfold parseOptionName; run
macro_rules | `(tactic| runlem) => `(tactic| exact Parser.trk_optionName _)

theorem trk_cloudSeparator (cfg : Cfg) : Run (AtEnd t) (Known t) E (cloudSeparator cfg) := by unfold cloudSeparator; run
macro_rules | `(tactic| runlem) => `(tactic| exact Parser.trk_cloudSeparator _)

theorem trk_cloudNeedSemi (cfg : Cfg) (b : Bool) : Run (AtEnd t) (JustRead t) E (cloudNeedSemi cfg b) := by unfold cloudNeedSemi; run
macro_rules | `(tactic| runlem) => `(tactic| exact Parser.trk_cloudNeedSemi _ _)

theorem trk_cloudClose (cfg : Cfg) : Run (JustRead t) (Known t) E (cloudClose cfg) := by unfold cloudClose; run
macro_rules | `(tactic| runlem) => `(tactic| exact Parser.trk_cloudClose _)

theorem trk_cloudLoop (cfg : Cfg) {m : P Str} (h : Run (AtEnd t) (Known t) E m) (n : Nat) (w : Str) :
    Run (AtEnd t) (Known t) E (cloudLoop cfg m n w) := by
  induction n generalizing w with
  | zero => exact trk_stop _
  | succ n ih => unfold cloudLoop; run

theorem trk_parseCloud (cfg : Cfg) {m : P Str} (h : Run (AtEnd t) (Known t) E m) :
    Run (AtEnd t) (Known t) E (parseCloud cfg m) := by
  have := trk_cloudLoop cfg h
  unfold parseCloud; run

theorem trk_constantsLoop {m : P Str} (h : Run (AtEnd t) (Known t) (Known t) m) (n : Nat) (w : Str) :
    Run (AtEnd t) (Known t) E (constantsLoop m n w) := by
  induction n generalizing w with
  | zero => exact trk_stop _
  | succ n ih => unfold constantsLoop; run

theorem trk_optionConstant (cfg : Cfg) (n : Nat) : Run (AtEnd t) (Known t) (Known t) (optionConstant cfg n) := by
  induction n with
  | zero => exact trk_stop _
  | succ n ih =>
    have h1 := trk_parseCloud cfg ih
    have h2 : Run (AtEnd t) (Known t) (Known t) (parseOptionConstants (optionConstant cfg n)) := by
      have := trk_constantsLoop (E := Known t) ih
      unfold parseOptionConstants; run
    unfold optionConstant; run

theorem run_catch {α : Type} {P Q : Lexer → Prop} {m : Verif.P α} (h : Run P Q (Known t) m) : Run P Q E m :=
  ⟨fun l hl => (h.sat l hl).mono (fun _ _ h => h) (fun _ _ h => Catch.of _ h)⟩

theorem trk_parseOptionConstant (cfg : Cfg) : Run (AtEnd t) (Known t) E (parseOptionConstant cfg) := by
  have := fun n => run_catch (E := E) (trk_optionConstant (t := t) cfg n)
  unfold parseOptionConstant; run
macro_rules | `(tactic| runlem) => `(tactic| exact Parser.trk_parseOptionConstant _)

theorem trk_option (cfg : Cfg) : Run (AtEnd t) (Known t) E (parseOption cfg) := by unfold parseOption; run
macro_rules | `(tactic| runlem) => `(tactic| exact Parser.trk_option _)

theorem trk_type : Run (AtEnd t) (Known t) E (parseType) := by unfold parseType; run
macro_rules | `(tactic| runlem) => `(tactic| exact Parser.trk_type)

theorem trk_fieldNumber : Run (AtEnd t) (Known t) E (parseFieldNumber) := by unfold parseFieldNumber; run
macro_rules | `(tactic| runlem) => `(tactic| exact Parser.trk_fieldNumber)

theorem trk_fieldOption (cfg : Cfg) : Run (AtEnd t) (Known t) E (parseFieldOption cfg) := by unfold parseFieldOption; run
macro_rules | `(tactic| runlem) => `(tactic| exact Parser.trk_fieldOption _)

theorem trk_fieldOptionsLoop (cfg : Cfg) (s : String) (n : Nat) (os : List FieldOption) : Run (AtEnd t) (Known t) E (fieldOptionsLoop cfg s n os) := by
  induction n generalizing os with
  | zero => exact trk_stop _
  | succ n ih => unfold fieldOptionsLoop; run
macro_rules | `(tactic| runlem) => `(tactic| exact Parser.trk_fieldOptionsLoop _ _ _ _)

theorem trk_fieldOptions (cfg : Cfg) : Run (AtEnd t) (Known t) E (parseFieldOptions cfg) := by unfold parseFieldOptions; run
macro_rules | `(tactic| runlem) => `(tactic| exact Parser.trk_fieldOptions _)

theorem trk_fieldOptionsOption (cfg : Cfg) : Run (AtEnd t) (Known t) E (parseFieldOptionsOption cfg) := by unfold parseFieldOptionsOption; run
macro_rules | `(tactic| runlem) => `(tactic| exact Parser.trk_fieldOptionsOption _)

theorem trk_label : Run (JustRead t) (Known t) E (parseLabel) := by unfold parseLabel; run
macro_rules | `(tactic| runlem) => `(tactic| exact Parser.trk_label)

theorem trk_field (cfg : Cfg) : Run (AtEnd t) (Known t) E (parseField cfg) := by unfold parseField; run
macro_rules | `(tactic| runlem) => `(tactic| exact Parser.trk_field _)

theorem trk_keyType : Run (AtEnd t) (Known t) E (parseKeyType) := by unfold parseKeyType; run
macro_rules | `(tactic| runlem) => `(tactic| exact Parser.trk_keyType)

theorem trk_mapField (cfg : Cfg) : Run (AtEnd t) (Known t) E (parseMapField cfg) := by unfold parseMapField; run
macro_rules | `(tactic| runlem) => `(tactic| exact Parser.trk_mapField _)

theorem trk_oneofField (cfg : Cfg) : Run (AtEnd t) (Known t) E (parseOneofField cfg) := by unfold parseOneofField; run
macro_rules | `(tactic| runlem) => `(tactic| exact Parser.trk_oneofField _)

theorem trk_oneofElement (cfg : Cfg) (cs : List Comment) : Run (AtEnd t) (Known t) E (parseOneofElement cfg cs) := by unfold parseOneofElement; run
macro_rules | `(tactic| runlem) => `(tactic| exact Parser.trk_oneofElement _ _)

theorem trk_oneofLoop (cfg : Cfg) (n : Nat) (fs : List OneofField) (os : List OptionStmt) : Run (AtEnd t) (JustRead t) E (oneofLoop cfg n fs os) := by
  induction n generalizing fs os with
  | zero => exact trk_stop _
  | succ n ih => unfold oneofLoop; run
macro_rules | `(tactic| runlem) => `(tactic| exact Parser.trk_oneofLoop _ _ _ _)

theorem trk_oneof (cfg : Cfg) : Run (AtEnd t) (Known t) E (parseOneof cfg) := by unfold parseOneof; run
macro_rules | `(tactic| runlem) => `(tactic| exact Parser.trk_oneof _)

theorem trk_range : Run (AtEnd t) (Known t) E (parseRange) := by unfold parseRange; run
macro_rules | `(tactic| runlem) => `(tactic| exact Parser.trk_range)

theorem trk_rangesLoop (n : Nat) (rs : List Range) : Run (AtEnd t) (Known t) E (rangesLoop n rs) := by
  induction n generalizing rs with
  | zero => exact trk_stop _
  | succ n ih => unfold rangesLoop; run
macro_rules | `(tactic| runlem) => `(tactic| exact Parser.trk_rangesLoop _ _)

theorem trk_ranges : Run (AtEnd t) (Known t) E (parseRanges) := by unfold parseRanges; run
macro_rules | `(tactic| runlem) => `(tactic| exact Parser.trk_ranges)

theorem trk_quoted : Run (AtEnd t) (Known t) E (parseQuotedFieldName) := by unfold parseQuotedFieldName; run
macro_rules | `(tactic| runlem) => `(tactic| exact Parser.trk_quoted)

theorem trk_fieldName : Run (AtEnd t) (Known t) E (parseFieldName) := by unfold parseFieldName; run
macro_rules | `(tactic| runlem) => `(tactic| exact Parser.trk_fieldName)

theorem trk_fieldNamesLoop (n : Nat) (ns : List Str) : Run (AtEnd t) (Known t) E (fieldNamesLoop n ns) := by
  induction n generalizing ns with
  | zero => exact trk_stop _
  | succ n ih => unfold fieldNamesLoop; run
macro_rules | `(tactic| runlem) => `(tactic| exact Parser.trk_fieldNamesLoop _ _)

theorem trk_fieldNames : Run (AtEnd t) (Known t) E (parseFieldNames) := by unfold parseFieldNames; run
macro_rules | `(tactic| runlem) => `(tactic| exact Parser.trk_fieldNames)

theorem trk_reservedBody : Run (AtEnd t) (Known t) E (parseReservedBody) := by unfold parseReservedBody; run
macro_rules | `(tactic| runlem) => `(tactic| exact Parser.trk_reservedBody)

theorem trk_reserved : Run (AtEnd t) (Known t) E (parseReserved) := by unfold parseReserved; run
macro_rules | `(tactic| runlem) => `(tactic| exact Parser.trk_reserved)

theorem trk_declItem (a : DeclAcc) : Run (JustRead t) (Known t) E (parseDeclItem a) := by unfold parseDeclItem; run
macro_rules | `(tactic| runlem) => `(tactic| exact Parser.trk_declItem _)

theorem trk_declLoop (n : Nat) (a : DeclAcc) : Run (AtEnd t) (Known t) E (declLoop n a) := by
  induction n generalizing a with
  | zero => exact trk_stop _
  | succ n ih => unfold declLoop; run
macro_rules | `(tactic| runlem) => `(tactic| exact Parser.trk_declLoop _ _)

theorem trk_declaration : Run (AtEnd t) (Known t) E (parseDeclaration) := by unfold parseDeclaration; run
macro_rules | `(tactic| runlem) => `(tactic| exact Parser.trk_declaration)

theorem trk_declarationsLoop (n : Nat) (ds : List Declaration) : Run (AtEnd t) (Known t) E (declarationsLoop n ds) := by
  induction n generalizing ds with
  | zero => exact trk_stop _
  | succ n ih => unfold declarationsLoop; run
macro_rules | `(tactic| runlem) => `(tactic| exact Parser.trk_declarationsLoop _ _)

theorem trk_declarations : Run (AtEnd t) (Known t) E (parseDeclarations) := by unfold parseDeclarations; run
macro_rules | `(tactic| runlem) => `(tactic| exact Parser.trk_declarations)

theorem trk_extensions : Run (AtEnd t) (Known t) E (parseExtensions) := by unfold parseExtensions; run
macro_rules | `(tactic| runlem) => `(tactic| exact Parser.trk_extensions)

theorem trk_closeBody (cfg : Cfg) (cs : List Comment) (vs : List Visitee) (o : Option Comment) : Run (AtEnd t) (Known t) E (closeBody cfg cs vs o) := by unfold closeBody; run
macro_rules | `(tactic| runlem) => `(tactic| exact Parser.trk_closeBody _ _ _ _)

theorem trk_enumValueOptions (cfg : Cfg) : Run (AtEnd t) (Known t) E (parseEnumValueOptions cfg) := by unfold parseEnumValueOptions; run
macro_rules | `(tactic| runlem) => `(tactic| exact Parser.trk_enumValueOptions _)

theorem trk_sign : Run (AtEnd t) (Known t) E (parseSign) := by unfold parseSign; run
macro_rules | `(tactic| runlem) => `(tactic| exact Parser.trk_sign)

theorem trk_enumField (cfg : Cfg) : Run (AtEnd t) (Known t) E (parseEnumField cfg) := by unfold parseEnumField; run
macro_rules | `(tactic| runlem) => `(tactic| exact Parser.trk_enumField _)

end Verif.Parser
