import Verif.Model.Api
import Verif.Model.Visitor
import Verif.Model.Unordered
import Verif.Model.Format
import Lean.Elab.Tactic.Basic

/-!
# The model against the tests of the repository

The unit tests in /repo are tables of inputs and expected results.  `conformance/gen.py` reads these
tables as text and turns every case into a statement about the model, which the kernel evaluates.
These are tests of the model, not proofs of properties: they show that the model and the code agree on
all the inputs for which the repository itself records what the code does, positions included.

Go's `reflect.DeepEqual` tells a nil slice from an empty one; the
model has one empty list for both.
-/

namespace Verif.Conformance
open Verif Parser

open Lean Meta Elab Tactic in
/-- Closes `a = b` with `Eq.refl a`, leaving it to the kernel alone to evaluate both sides. -/
elab "kernel_rfl" : tactic => do
  let goal ← getMainGoal
  let some (α, a, _) := (← instantiateMVars (← goal.getType)).eq? | throwError "not an equation"
  goal.assign (mkApp2 (mkConst ``Eq.refl [← getLevel α]) α a)

/-- The functions of the interpreter recurse through the tree and are unfolded by their equations. -/
macro "unordered_rfl" : tactic => `(tactic|
  (simp only [Unordered.ofPtr, Unordered.interpretEnum, Unordered.enumBodyLoop, Unordered.interpretService,
    Unordered.serviceBodyLoop, Unordered.interpretMessage, Unordered.messageBodyLoop,
    Unordered.interpretProto, Unordered.protoBodyLoop, Unordered.interpretExtend,
    Unordered.extendBodyLoop]
   kernel_rfl))

/-- The options of `NewParser` in the tests. -/
def cfg (p b : Bool) : Cfg := { permissive := p, bodyIncludingComments := b, fuel := 100 }

/-- The common form of the tests in parser/*_test.go: parse, and see whether the end of the file is next. -/
def reads {α : Type} (f : P α) (file input : Str) : Option (α × Bool) :=
  match f (Lexer.new input file) with
  | .ok a l => match Parser.isEOF l with
    | .ok b _ => some (a, b)
    | _ => none
  | _ => none

/-- The common form of the tests in lexer/*_test.go: the text, its position, and the same question. -/
def lexes (f : P (Str × SPos)) (file input : Str) : Option (Str × Position × Bool) :=
  match f (Lexer.new input file) with
  | .ok a l => match Parser.isEOF l with
    | .ok b _ => some (a.1, a.2.p, b)
    | _ => none
  | _ => none

/-- inlineComment_test.go: a field, whatever comes of it, and then `MaybeScanInlineComment`. -/
def inlineAfterField : P (Option Comment) := fun l =>
  match parseField (cfg false false) l with
  | .ok _ l | .err _ l => parseInlineComment l
  | .halt h => .halt h

/-- `wantErr`. -/
def fails {α : Type} (f : P α) (file input : Str) : Bool :=
  match f (Lexer.new input file) with
  | .err _ _ => true
  | _ => false

/-- scanner_test.go, `TestScanner_Scan`: so many scans, then the end of the file. -/
def scans : Nat → Scanner → List (Token × Str × Position × Bool) × Bool
  | 0, s => match Scanner.scan s with
    | .ok r _ => ([], r.token == .eof)
    | _ => ([], false)
  | n + 1, s => match Scanner.scan s with
    | .ok r s => let x := scans n s; ((r.token, r.text, r.pos.p, r.error.isSome) :: x.1, x.2)
    | _ => ([], false)

/-- scanner_test.go, `TestScanner_UnScan`: scan, put back, scan again, then the end of the file. -/
def rescans (s : Scanner) : Option (Position × Bool × Bool) :=
  match Scanner.scan s with
  | .ok r s =>
    let u := Scanner.unScan s
    match Scanner.scan u with
    | .ok r' s => match Scanner.scan s with
      | .ok r'' _ =>
        some (u.pos.p,
          r.token == r'.token && r.text == r'.text && r.pos.p == r'.pos.p && r'.error.isNone,
          r''.token == .eof)
      | _ => none
    | _ => none
  | _ => none

/-- The methods of `protoTestVisitor`: proto_accept_test.go:11-123. -/
def line : Node → Str
  | .comment c => c!"Comment: " ++ c.raw
  | .declaration _ => c!"Declaration"
  | .edition _ => c!"Edition"
  | .emptyStatement _ => c!"EmptyStatement"
  | .enum e => c!"Enum: " ++ e.enumName
  | .enumField f => c!"EnumField: " ++ f.ident
  | .extend e => c!"Extend: " ++ e.messageType
  | .extensions _ => c!"Extensions"
  | .field f => c!"Field: " ++ f.fieldName
  | .groupField g => c!"GroupField: " ++ g.groupName
  | .importStmt i => c!"Import: " ++ i.location
  | .mapField m => c!"MapField: " ++ m.mapName
  | .message m => c!"Message: " ++ m.messageName
  | .oneof o => c!"Oneof: " ++ o.oneofName
  | .oneofField f => c!"OneofField: " ++ f.fieldName
  | .option o => c!"Option: " ++ o.optionName
  | .package p => c!"Package: " ++ p.name
  | .reserved _ => c!"Reserved"
  | .rpc r => c!"RPC: " ++ r.rpcName
  | .service s => c!"Service: " ++ s.serviceName
  | .syntaxStmt s => c!"Syntax: " ++ s.protobufVersion

/-- proto_accept_test.go, `TestProto_Accept`. -/
def visits (p : Proto) : Str :=
  match Visit.proto (fun n (b : List Str) => (true, b ++ [line n])) p [] with
  | .ok _ b => List.intercalate ['\n'] b
  | _ => []

end Verif.Conformance
