import Verif.Proofs.Machine
import Verif.Proofs.CommentPos

set_option backward.isDefEq.respectTransparency false
set_option backward.dsimp.instances true

/-!
# The functions of the parser on the concrete state and on the ideal cursor
-/

namespace Verif.Parser

open Verif Spec Lexer Props

variable {ρ : Type} [Source ρ]

theorem ref_orUnexpected {α β : Type} {f : α → β} {m : P α} {m' : MP ρ β} (e : String) (h : Ref f m m') :
    Ref f (orUnexpected m e) (Machine.Parse.orUnexpected m' e) :=
  Ref.bind_attempt h (fun _ => Ref.pure rfl) fun _ => Lexer.ref_perr _

theorem ref_expect {m : P Unit} {m' : MP ρ Unit} (t : Token) (e : String) (h : Ref (fun a => a) m m') :
    Ref (fun a => a) (expect m t e) (Machine.Parse.expect m' t e) := by
  refine h.bind fun _ => ?_
  ref

macro_rules | `(tactic| reflem) => `(tactic| (apply ref_expect; reflem))
macro_rules | `(tactic| reflem) => `(tactic| (apply ref_orUnexpected; reflem))

theorem ref_peekKeyword : Ref (ρ := ρ) (fun a => a) peekKeyword Machine.Parse.peekKeyword := by
  unfold peekKeyword Machine.Parse.peekKeyword; ref
macro_rules | `(tactic| reflem) => `(tactic| exact ref_peekKeyword)

theorem ref_eof : Ref (ρ := ρ) (fun a => a) Parser.isEOF Machine.Parse.isEOF := by
  unfold Parser.isEOF Machine.Parse.isEOF; ref
macro_rules | `(tactic| reflem) => `(tactic| exact ref_eof)

/-! ## Comments -/

/-- Building a comment from a scanned one leaves what can be seen as it is. -/
theorem ref_mkComment {l : Lexer} {k : Machine ρ} {t : Str} {q : SPos} {more : Str} (h : RLex l k)
    (hs : l.scanner.pos = q.advanceAll (t ++ more)) :
    ∃ k', Machine.Parse.mkComment t q.p k = .ok (mkComment t q) k' ∧ RLex l k' := by
  refine ⟨{ k with scanner := (Concrete.advancedBulk q.p t k.scanner).2 }, ?_, ⟨h.token, h.text, h.rawText, h.pos, h.log, stand_bulk rfl t more hs h.stand⟩⟩
  unfold Machine.Parse.mkComment mkComment
  simp only
  rw [bulk_result (q := q) rfl t k.scanner]

theorem ref_parseComment : Ref (ρ := ρ) (fun a => a) parseComment Machine.Parse.parseComment := by
  intro l k h
  unfold parseComment Machine.Parse.parseComment
  refine RefRes.bind (ref_nextWith _ l k h) fun _ l1 k1 e1 _ h1 => ?_
  have past := at_nextWith _ l _ _ e1
  refine RefRes.bind (ref_tok l1 k1 h1) fun t l2 k2 e2 _ h2 => ?_
  cases e2
  by_cases ht : l1.token = .comment
  · rw [if_pos ht]
    have : (fun a : Token => a) l1.token = .comment := ht
    rw [if_pos this]
    obtain ⟨more, hp⟩ := past ht
    obtain ⟨k', e', h'⟩ := ref_mkComment h2 hp
    refine RefRes.bind (ref_txt l1 k2 h2) fun x l3 k3 e3 e3' h3 => ?_
    cases e3
    refine RefRes.bind (ref_position l1 k3 h3) fun x l4 k4 e4 e4' h4 => ?_
    cases e4
    obtain ⟨k', e', h'⟩ := ref_mkComment h4 hp
    show RefRes _ (Res.ok _ _) (Machine.Parse.mkComment _ _ k4)
    rw [e']
    exact ⟨rfl, h'⟩
  · rw [if_neg ht]
    have : ¬ (fun a : Token => a) l1.token = .comment := ht
    rw [if_neg this]
    refine Ref.bind_attempt (f := fun a => a) (Lexer.ref_perr _) (fun a => ?_) (fun e => ?_) l1 k2 h2
    · exact ref_unNext.bind fun _ => Ref.pure rfl
    · exact ref_unNext.bind fun _ => Ref.throw

macro_rules | `(tactic| reflem) => `(tactic| exact ref_parseComment)

theorem ref_parseCommentsLoop (n : Nat) (cs : List Comment) :
    Ref (ρ := ρ) (fun a => a) (parseCommentsLoop n cs) (Machine.Parse.parseCommentsLoop n cs) := by
  induction n generalizing cs with
  | zero => exact Ref.fuel
  | succ n ih =>
    unfold parseCommentsLoop Machine.Parse.parseCommentsLoop
    exact Ref.bind_attempt ref_parseComment (fun a => ih _) fun e => Ref.pure rfl
macro_rules | `(tactic| reflem) => `(tactic| exact ref_parseCommentsLoop _ _)

theorem ref_parseComments : Ref (ρ := ρ) (fun a => a) parseComments Machine.Parse.parseComments := by
  unfold parseComments Machine.Parse.parseComments; ref
macro_rules | `(tactic| reflem) => `(tactic| exact ref_parseComments)

theorem ref_parseInlineComment : Ref (ρ := ρ) (fun a => a) parseInlineComment Machine.Parse.parseInlineComment := by
  unfold parseInlineComment Machine.Parse.parseInlineComment
  refine ref_position.bind fun p => Ref.bind_attempt ref_parseComment (fun a => ?_) fun e => Ref.pure rfl
  dsimp only
  ref
macro_rules | `(tactic| reflem) => `(tactic| exact ref_parseInlineComment)

theorem ref_setInlineComment (v : Visitee) (c : Comment) :
    Ref (ρ := ρ) (fun a => a) (setInlineComment v c) (Machine.Parse.setInlineComment v c) := by
  cases v <;> first | exact Ref.pure rfl | exact Ref.panic
macro_rules | `(tactic| reflem) => `(tactic| exact ref_setInlineComment _ _)

theorem ref_maybeScanInlineComment (v : Visitee) :
    Ref (ρ := ρ) (fun a => a) (maybeScanInlineComment v) (Machine.Parse.maybeScanInlineComment v) := by
  unfold maybeScanInlineComment Machine.Parse.maybeScanInlineComment
  refine ref_parseInlineComment.bind fun a => ?_
  cases a with
  | none => exact Ref.pure rfl
  | some c => exact ref_setInlineComment _ _
macro_rules | `(tactic| reflem) => `(tactic| exact ref_maybeScanInlineComment _)

theorem ref_blockLastPos (cfg : Cfg) :
    Ref (ρ := ρ) (fun a => a.p) (blockLastPos cfg) (Machine.Parse.blockLastPos cfg) := by
  unfold blockLastPos Machine.Parse.blockLastPos; ref
macro_rules | `(tactic| reflem) => `(tactic| exact ref_blockLastPos _)

/-! ## Simple statements -/

theorem ref_parseSyntax : Ref (ρ := ρ) (fun a => a) parseSyntax Machine.Parse.parseSyntax := by
  unfold parseSyntax Machine.Parse.parseSyntax; ref
macro_rules | `(tactic| reflem) => `(tactic| exact ref_parseSyntax)

theorem ref_parseEdition : Ref (ρ := ρ) (fun a => a) parseEdition Machine.Parse.parseEdition := by
  unfold parseEdition Machine.Parse.parseEdition; ref
macro_rules | `(tactic| reflem) => `(tactic| exact ref_parseEdition)

theorem ref_parsePackage : Ref (ρ := ρ) (fun a => a) parsePackage Machine.Parse.parsePackage := by
  unfold parsePackage Machine.Parse.parsePackage; ref
macro_rules | `(tactic| reflem) => `(tactic| exact ref_parsePackage)

theorem ref_parseImportModifier :
    Ref (ρ := ρ) (fun a => a) parseImportModifier Machine.Parse.parseImportModifier := by
  unfold parseImportModifier Machine.Parse.parseImportModifier; ref
macro_rules | `(tactic| reflem) => `(tactic| exact ref_parseImportModifier)

theorem ref_parseImport : Ref (ρ := ρ) (fun a => a) parseImport Machine.Parse.parseImport := by
  unfold parseImport Machine.Parse.parseImport; ref
macro_rules | `(tactic| reflem) => `(tactic| exact ref_parseImport)

/-! ## Options -/

theorem ref_optionNameDot (cfg : Cfg) :
    Ref (ρ := ρ) (fun a => a) (optionNameDot cfg) (Machine.Parse.optionNameDot cfg) := by
  unfold optionNameDot Machine.Parse.optionNameDot; ref
macro_rules | `(tactic| reflem) => `(tactic| exact ref_optionNameDot _)

theorem ref_optionNamePart (cfg : Cfg) (e : String) :
    Ref (ρ := ρ) (fun a => a) (optionNamePart cfg e) (Machine.Parse.optionNamePart cfg e) := by
  unfold optionNamePart Machine.Parse.optionNamePart; ref
macro_rules | `(tactic| reflem) => `(tactic| exact ref_optionNamePart _ _)

theorem ref_optionNameLoop (cfg : Cfg) (n : Nat) (x : Str) :
    Ref (ρ := ρ) (fun a => a) (optionNameLoop cfg n x) (Machine.Parse.optionNameLoop cfg n x) := by
  induction n generalizing x with
  | zero => exact Ref.fuel
  | succ n ih => unfold optionNameLoop Machine.Parse.optionNameLoop; ref; all_goals exact ih _
macro_rules | `(tactic| reflem) => `(tactic| exact ref_optionNameLoop _ _ _)

theorem ref_parseOptionName (cfg : Cfg) :
    Ref (ρ := ρ) (fun a => a) (parseOptionName cfg) (Machine.Parse.parseOptionName cfg) := by
  unfold parseOptionName Machine.Parse.parseOptionName; ref
macro_rules | `(tactic| reflem) => `(tactic| exact ref_parseOptionName _)

theorem ref_cloudSeparator (cfg : Cfg) :
    Ref (ρ := ρ) (fun a => a) (cloudSeparator cfg) (Machine.Parse.cloudSeparator cfg) := by
  unfold cloudSeparator Machine.Parse.cloudSeparator; ref
macro_rules | `(tactic| reflem) => `(tactic| exact ref_cloudSeparator _)

theorem ref_cloudNeedSemi (cfg : Cfg) (b : Bool) :
    Ref (ρ := ρ) (fun a => a) (cloudNeedSemi cfg b) (Machine.Parse.cloudNeedSemi cfg b) := by
  unfold cloudNeedSemi Machine.Parse.cloudNeedSemi; ref
macro_rules | `(tactic| reflem) => `(tactic| exact ref_cloudNeedSemi _ _)

theorem ref_cloudClose (cfg : Cfg) :
    Ref (ρ := ρ) (fun a => a) (cloudClose cfg) (Machine.Parse.cloudClose cfg) := by
  unfold cloudClose Machine.Parse.cloudClose; ref
macro_rules | `(tactic| reflem) => `(tactic| exact ref_cloudClose _)

theorem ref_cloudLoop (cfg : Cfg) {c : P Str} {c' : MP ρ Str} (hc : Ref (fun a => a) c c') (n : Nat) (x : Str) :
    Ref (fun a => a) (cloudLoop cfg c n x) (Machine.Parse.cloudLoop cfg c' n x) := by
  induction n generalizing x with
  | zero => exact Ref.fuel
  | succ n ih =>
    unfold cloudLoop Machine.Parse.cloudLoop
    refine (ref_expect _ _ ref_next).bind fun _ => ref_txt.bind fun y => ?_
    refine (ref_cloudSeparator cfg).bind2 fun a b => hc.bind fun d => ?_
    refine (ref_cloudNeedSemi cfg _).bind fun e => (ref_cloudClose cfg).bind2 fun f g => ?_
    exact Ref.ite (Ref.pure rfl) (ih _)

theorem ref_parseCloud (cfg : Cfg) {c : P Str} {c' : MP ρ Str} (hc : Ref (fun a => a) c c') :
    Ref (fun a => a) (parseCloud cfg c) (Machine.Parse.parseCloud cfg c') := by
  unfold parseCloud Machine.Parse.parseCloud
  ref
  exact ref_cloudLoop cfg hc _ _

theorem ref_constantsLoop {c : P Str} {c' : MP ρ Str} (hc : Ref (fun a => a) c c') (n : Nat) (x : Str) :
    Ref (fun a => a) (constantsLoop c n x) (Machine.Parse.constantsLoop c' n x) := by
  induction n generalizing x with
  | zero => exact Ref.fuel
  | succ n ih =>
    unfold constantsLoop Machine.Parse.constantsLoop
    refine ref_next.bind fun _ => ref_tok.bind fun t => Ref.ite (by ref) ?_
    exact (ref_orUnexpected _ hc).bind fun y => ih _

theorem ref_parseOptionConstants {c : P Str} {c' : MP ρ Str} (hc : Ref (fun a => a) c c') :
    Ref (fun a => a) (parseOptionConstants c) (Machine.Parse.parseOptionConstants c') := by
  unfold parseOptionConstants Machine.Parse.parseOptionConstants
  exact hc.bind fun y => ref_bound.bind fun n => ref_constantsLoop hc _ _

theorem ref_optionConstant (cfg : Cfg) (d : Nat) :
    Ref (ρ := ρ) (fun a => a) (optionConstant cfg d) (Machine.Parse.optionConstant cfg d) := by
  induction d with
  | zero => exact Ref.fuel
  | succ d ih =>
    unfold optionConstant Machine.Parse.optionConstant
    ref
    · exact ref_cloudLoop cfg ih _ _
    · exact (ref_parseOptionConstants ih).bind fun y => ref_next.bind fun _ => Ref.pure rfl
macro_rules | `(tactic| reflem) => `(tactic| exact ref_optionConstant _ _)

theorem ref_parseOptionConstant (cfg : Cfg) :
    Ref (ρ := ρ) (fun a => a) (parseOptionConstant cfg) (Machine.Parse.parseOptionConstant cfg) := by
  unfold parseOptionConstant Machine.Parse.parseOptionConstant; ref
macro_rules | `(tactic| reflem) => `(tactic| exact ref_parseOptionConstant _)

theorem ref_parseOption (cfg : Cfg) :
    Ref (ρ := ρ) (fun a => a) (parseOption cfg) (Machine.Parse.parseOption cfg) := by
  unfold parseOption Machine.Parse.parseOption; ref
macro_rules | `(tactic| reflem) => `(tactic| exact ref_parseOption _)

/-! ## Fields -/

theorem ref_parseType : Ref (ρ := ρ) (fun a => (a.1, a.2.p)) parseType Machine.Parse.parseType := by
  unfold parseType Machine.Parse.parseType; ref
macro_rules | `(tactic| reflem) => `(tactic| exact ref_parseType)

theorem ref_parseFieldNumber : Ref (ρ := ρ) (fun a => a) parseFieldNumber Machine.Parse.parseFieldNumber := by
  unfold parseFieldNumber Machine.Parse.parseFieldNumber; ref
macro_rules | `(tactic| reflem) => `(tactic| exact ref_parseFieldNumber)

theorem ref_parseFieldOption (cfg : Cfg) :
    Ref (ρ := ρ) (fun a => a) (parseFieldOption cfg) (Machine.Parse.parseFieldOption cfg) := by
  unfold parseFieldOption Machine.Parse.parseFieldOption; ref
macro_rules | `(tactic| reflem) => `(tactic| exact ref_parseFieldOption _)

theorem ref_fieldOptionsLoop (cfg : Cfg) (e : String) (n : Nat) (x : List FieldOption) :
    Ref (ρ := ρ) (fun a => a) (fieldOptionsLoop cfg e n x) (Machine.Parse.fieldOptionsLoop cfg e n x) := by
  induction n generalizing x with
  | zero => exact Ref.fuel
  | succ n ih => unfold fieldOptionsLoop Machine.Parse.fieldOptionsLoop; ref; all_goals exact ih _
macro_rules | `(tactic| reflem) => `(tactic| exact ref_fieldOptionsLoop _ _ _ _)

theorem ref_parseFieldOptions (cfg : Cfg) :
    Ref (ρ := ρ) (fun a => a) (parseFieldOptions cfg) (Machine.Parse.parseFieldOptions cfg) := by
  unfold parseFieldOptions Machine.Parse.parseFieldOptions; ref
macro_rules | `(tactic| reflem) => `(tactic| exact ref_parseFieldOptions _)

theorem ref_parseFieldOptionsOption (cfg : Cfg) :
    Ref (ρ := ρ) (fun a => a) (parseFieldOptionsOption cfg) (Machine.Parse.parseFieldOptionsOption cfg) := by
  unfold parseFieldOptionsOption Machine.Parse.parseFieldOptionsOption; ref
macro_rules | `(tactic| reflem) => `(tactic| exact ref_parseFieldOptionsOption _)

theorem ref_parseLabel : Ref (ρ := ρ) (fun a => a) parseLabel Machine.Parse.parseLabel := by
  unfold parseLabel Machine.Parse.parseLabel; ref
macro_rules | `(tactic| reflem) => `(tactic| exact ref_parseLabel)

theorem ref_parseField (cfg : Cfg) :
    Ref (ρ := ρ) (fun a => a) (parseField cfg) (Machine.Parse.parseField cfg) := by
  unfold parseField Machine.Parse.parseField; ref
macro_rules | `(tactic| reflem) => `(tactic| exact ref_parseField _)

theorem ref_parseKeyType : Ref (ρ := ρ) (fun a => a) parseKeyType Machine.Parse.parseKeyType := by
  unfold parseKeyType Machine.Parse.parseKeyType; ref
macro_rules | `(tactic| reflem) => `(tactic| exact ref_parseKeyType)

theorem ref_parseMapField (cfg : Cfg) :
    Ref (ρ := ρ) (fun a => a) (parseMapField cfg) (Machine.Parse.parseMapField cfg) := by
  unfold parseMapField Machine.Parse.parseMapField; ref
macro_rules | `(tactic| reflem) => `(tactic| exact ref_parseMapField _)

/-! ## Oneofs -/

theorem ref_parseOneofField (cfg : Cfg) :
    Ref (ρ := ρ) (fun a => a) (parseOneofField cfg) (Machine.Parse.parseOneofField cfg) := by
  unfold parseOneofField Machine.Parse.parseOneofField; ref
macro_rules | `(tactic| reflem) => `(tactic| exact ref_parseOneofField _)

theorem ref_parseOneofElement (cfg : Cfg) (cs : List Comment) :
    Ref (ρ := ρ) (fun a => a) (parseOneofElement cfg cs) (Machine.Parse.parseOneofElement cfg cs) := by
  unfold parseOneofElement Machine.Parse.parseOneofElement; ref
macro_rules | `(tactic| reflem) => `(tactic| exact ref_parseOneofElement _ _)

theorem ref_oneofLoop (cfg : Cfg) (n : Nat) (x : List OneofField) (y : List OptionStmt) :
    Ref (ρ := ρ) (fun a => a) (oneofLoop cfg n x y) (Machine.Parse.oneofLoop cfg n x y) := by
  induction n generalizing x y with
  | zero => exact Ref.fuel
  | succ n ih =>
    unfold oneofLoop Machine.Parse.oneofLoop
    refine ref_parseComments.bind fun cs => Ref.bind_attempt ref_readEmptyStatement (fun _ => ih _ _) fun e => ?_
    refine (ref_parseOneofElement cfg cs).bind fun a => ?_
    cases a with
    | inl o =>
      refine ref_next.bind fun _ => ref_tok.bind fun t => Ref.ite (Ref.pure rfl) ?_
      exact ref_unNext.bind fun _ => ih _ _
    | inr o =>
      refine ref_next.bind fun _ => ref_tok.bind fun t => Ref.ite (Ref.pure rfl) ?_
      exact ref_unNext.bind fun _ => ih _ _
macro_rules | `(tactic| reflem) => `(tactic| exact ref_oneofLoop _ _ _ _)

theorem ref_parseOneof (cfg : Cfg) :
    Ref (ρ := ρ) (fun a => a) (parseOneof cfg) (Machine.Parse.parseOneof cfg) := by
  unfold parseOneof Machine.Parse.parseOneof; ref
macro_rules | `(tactic| reflem) => `(tactic| exact ref_parseOneof _)

/-! ## Reserved and extensions -/

theorem ref_parseRange : Ref (ρ := ρ) (fun a => a) parseRange Machine.Parse.parseRange := by
  unfold parseRange Machine.Parse.parseRange; ref
macro_rules | `(tactic| reflem) => `(tactic| exact ref_parseRange)

theorem ref_rangesLoop (n : Nat) (x : List Range) :
    Ref (ρ := ρ) (fun a => a) (rangesLoop n x) (Machine.Parse.rangesLoop n x) := by
  induction n generalizing x with
  | zero => exact Ref.fuel
  | succ n ih => unfold rangesLoop Machine.Parse.rangesLoop; ref; all_goals exact ih _
macro_rules | `(tactic| reflem) => `(tactic| exact ref_rangesLoop _ _)

theorem ref_parseRanges : Ref (ρ := ρ) (fun a => a) parseRanges Machine.Parse.parseRanges := by
  unfold parseRanges Machine.Parse.parseRanges; ref
macro_rules | `(tactic| reflem) => `(tactic| exact ref_parseRanges)

theorem ref_parseQuotedFieldName :
    Ref (ρ := ρ) (fun a => a) parseQuotedFieldName Machine.Parse.parseQuotedFieldName := by
  unfold parseQuotedFieldName Machine.Parse.parseQuotedFieldName; ref
macro_rules | `(tactic| reflem) => `(tactic| exact ref_parseQuotedFieldName)

theorem ref_parseFieldName : Ref (ρ := ρ) (fun a => a) parseFieldName Machine.Parse.parseFieldName := by
  unfold parseFieldName Machine.Parse.parseFieldName
  refine Ref.bind_attempt ref_parseQuotedFieldName (fun _ => Ref.pure rfl) fun e => ?_
  dsimp only
  ref
macro_rules | `(tactic| reflem) => `(tactic| exact ref_parseFieldName)

theorem ref_fieldNamesLoop (n : Nat) (x : List Str) :
    Ref (ρ := ρ) (fun a => a) (fieldNamesLoop n x) (Machine.Parse.fieldNamesLoop n x) := by
  induction n generalizing x with
  | zero => exact Ref.fuel
  | succ n ih =>
    unfold fieldNamesLoop Machine.Parse.fieldNamesLoop
    refine ref_next.bind fun _ => ref_tok.bind fun t => Ref.ite ?_ ?_
    · exact ref_parseFieldName.bind fun _ => ih _
    · refine ref_unNext.bind fun _ => Ref.bind_attempt ref_parseFieldName (fun _ => ih _) fun e => Ref.pure rfl
macro_rules | `(tactic| reflem) => `(tactic| exact ref_fieldNamesLoop _ _)

theorem ref_parseFieldNames : Ref (ρ := ρ) (fun a => a) parseFieldNames Machine.Parse.parseFieldNames := by
  unfold parseFieldNames Machine.Parse.parseFieldNames; ref
macro_rules | `(tactic| reflem) => `(tactic| exact ref_parseFieldNames)

theorem ref_parseReservedBody :
    Ref (ρ := ρ) (fun a => a) parseReservedBody Machine.Parse.parseReservedBody := by
  unfold parseReservedBody Machine.Parse.parseReservedBody
  refine Ref.bind_attempt ref_parseRanges (fun _ => Ref.pure rfl) fun e => ?_
  exact Ref.bind_attempt ref_parseFieldNames (fun _ => Ref.pure rfl) fun e => Ref.throw
macro_rules | `(tactic| reflem) => `(tactic| exact ref_parseReservedBody)

theorem ref_parseReserved : Ref (ρ := ρ) (fun a => a) parseReserved Machine.Parse.parseReserved := by
  unfold parseReserved Machine.Parse.parseReserved; ref
macro_rules | `(tactic| reflem) => `(tactic| exact ref_parseReserved)

theorem ref_parseDeclItem (a : DeclAcc) :
    Ref (ρ := ρ) (fun a => a) (parseDeclItem a) (Machine.Parse.parseDeclItem a) := by
  unfold parseDeclItem Machine.Parse.parseDeclItem; ref
macro_rules | `(tactic| reflem) => `(tactic| exact ref_parseDeclItem _)

theorem ref_declLoop (n : Nat) (x : DeclAcc) :
    Ref (ρ := ρ) (fun a => a) (declLoop n x) (Machine.Parse.declLoop n x) := by
  induction n generalizing x with
  | zero => exact Ref.fuel
  | succ n ih => unfold declLoop Machine.Parse.declLoop; ref; all_goals exact ih _
macro_rules | `(tactic| reflem) => `(tactic| exact ref_declLoop _ _)

theorem ref_parseDeclaration : Ref (ρ := ρ) (fun a => a) parseDeclaration Machine.Parse.parseDeclaration := by
  unfold parseDeclaration Machine.Parse.parseDeclaration; ref
macro_rules | `(tactic| reflem) => `(tactic| exact ref_parseDeclaration)

theorem ref_declarationsLoop (n : Nat) (x : List Declaration) :
    Ref (ρ := ρ) (fun a => a) (declarationsLoop n x) (Machine.Parse.declarationsLoop n x) := by
  induction n generalizing x with
  | zero => exact Ref.fuel
  | succ n ih => unfold declarationsLoop Machine.Parse.declarationsLoop; ref; all_goals exact ih _
macro_rules | `(tactic| reflem) => `(tactic| exact ref_declarationsLoop _ _)

theorem ref_parseDeclarations :
    Ref (ρ := ρ) (fun a => a) parseDeclarations Machine.Parse.parseDeclarations := by
  unfold parseDeclarations Machine.Parse.parseDeclarations; ref
macro_rules | `(tactic| reflem) => `(tactic| exact ref_parseDeclarations)

theorem ref_parseExtensions : Ref (ρ := ρ) (fun a => a) parseExtensions Machine.Parse.parseExtensions := by
  unfold parseExtensions Machine.Parse.parseExtensions; ref
macro_rules | `(tactic| reflem) => `(tactic| exact ref_parseExtensions)

end Verif.Parser
