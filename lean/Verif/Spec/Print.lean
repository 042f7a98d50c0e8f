import Verif.Spec.Bare
import Verif.Spec.Lexical

/-!
# Printing a tree

A printer that uses nothing but the strings and flags of a tree, as a tool that writes a tree back would.
It prints pieces with a blank before each of them.  Comments, empty statements and nil elements are not
printed.  The options of a oneof are printed before its fields.
-/

namespace Verif.Spec

/-- The pieces with a blank before each of them and a line break at the end. -/
def pieced : List Str → Str
  | [] => ['\n']
  | w :: ws => ' ' :: (w ++ pieced ws)

/-- Lists of pieces with commas between them. -/
def commas : List (List Str) → List Str
  | [] => []
  | [x] => x
  | x :: xs => x ++ c!"," :: commas xs

def printSyntax (x : Syntax) : List Str := [c!"syntax", c!"=", x.protobufVersionQuote, c!";"]
def printEdition (x : Edition) : List Str := [c!"edition", c!"=", x.editionQuote, c!";"]
def printPackage (x : Package) : List Str := [c!"package", x.name, c!";"]

def printModifier : ImportModifier → List Str
  | .none => []
  | .public => [c!"public"]
  | .weak => [c!"weak"]

def printImport (x : Import) : List Str := c!"import" :: printModifier x.modifier ++ [x.location, c!";"]
def printOption (x : OptionStmt) : List Str := [c!"option", x.optionName, c!"=", x.constant, c!";"]

def printFieldOptions : List FieldOption → List Str
  | [] => []
  | xs => c!"[" :: commas (xs.map fun x => [x.optionName, c!"=", x.constant]) ++ [c!"]"]

def printLabel (repeated required optional : Bool) : List Str :=
  if repeated then [c!"repeated"] else if required then [c!"required"]
  else if optional then [c!"optional"] else []

def printField (x : Field) : List Str :=
  printLabel x.isRepeated x.isRequired x.isOptional ++ [x.type, x.fieldName, c!"=", x.fieldNumber] ++
    printFieldOptions x.fieldOptions ++ [c!";"]

def printMapField (x : MapField) : List Str :=
  [c!"map", c!"<", x.keyType, c!",", x.type, c!">", x.mapName, c!"=", x.fieldNumber] ++
    printFieldOptions x.fieldOptions ++ [c!";"]

def printOneofField (x : OneofField) : List Str :=
  [x.type, x.fieldName, c!"=", x.fieldNumber] ++ printFieldOptions x.fieldOptions ++ [c!";"]

def printOneof (x : Oneof) : List Str :=
  [c!"oneof", x.oneofName, c!"{"] ++ (x.options.flatMap printOption ++ x.oneofFields.flatMap printOneofField) ++
    [c!"}"]

def printRange (x : Range) : List Str := if x.end_ = [] then [x.begin_] else [x.begin_, c!"to", x.end_]

def printReserved (x : Reserved) : List Str :=
  c!"reserved" :: (commas (x.ranges.map printRange) ++ commas (x.fieldNames.map fun w => [w])) ++ [c!";"]

def printDeclaration (x : Declaration) : List Str :=
  [c!"declaration", c!"=", c!"{"] ++
    ((if x.number = [] then [] else [c!"number", c!":", x.number]) ++
    ((if x.fullName = [] then [] else [c!"full_name", c!":", x.fullName]) ++
    ((if x.type = [] then [] else [c!"type", c!":", x.type]) ++
    ((if x.repeated then [c!"repeated", c!":", c!"true"] else []) ++
    (if x.reserved then [c!"reserved", c!":", c!"true"] else []))))) ++ [c!"}"]

def printDeclarations : List Declaration → List Str
  | [] => []
  | xs => c!"[" :: commas (xs.map printDeclaration) ++ [c!"]"]

def printExtensions (x : Extensions) : List Str :=
  c!"extensions" :: (commas (x.ranges.map printRange) ++ printDeclarations x.declarations) ++ [c!";"]

def printEnumField (x : EnumField) : List Str :=
  [x.ident, c!"=", x.number] ++ printFieldOptions x.enumValueOptions ++ [c!";"]

def printRPCMessage (x : RPCMessage) : List Str :=
  c!"(" :: ((if x.isStream then [c!"stream"] else []) ++ [x.messageType]) ++ [c!")"]

def printRPCEnd : List OptionStmt → List Str
  | [] => [c!";"]
  | os => c!"{" :: os.flatMap printOption ++ [c!"}"]

def printRPC (x : RPC) : List Str :=
  [c!"rpc", x.rpcName] ++ printRPCMessage x.rpcRequest ++ c!"returns" :: printRPCMessage x.rpcResponse ++
    printRPCEnd x.options

mutual
/-- The pieces of an element. -/
def print : Visitee → List Str
  | .nil => []
  | .comment _ => []
  | .emptyStatement _ => []
  | .importStmt x => printImport x
  | .package x => printPackage x
  | .option x => printOption x
  | .message ⟨nm, body, _, _, _, _⟩ => [c!"message", nm, c!"{"] ++ printAll body ++ [c!"}"]
  | .enum ⟨nm, body, _, _, _, _⟩ => [c!"enum", nm, c!"{"] ++ printAll body ++ [c!"}"]
  | .service ⟨nm, body, _, _, _, _⟩ => [c!"service", nm, c!"{"] ++ printAll body ++ [c!"}"]
  | .extend ⟨nm, body, _, _, _, _⟩ => [c!"extend", nm, c!"{"] ++ printAll body ++ [c!"}"]
  | .field x => printField x
  | .enumField x => printEnumField x
  | .oneof x => printOneof x
  | .mapField x => printMapField x
  | .groupField ⟨a, b, c, nm, body, num, _, _, _, _⟩ =>
    printLabel a b c ++ [c!"group", nm, c!"=", num, c!"{"] ++ printAll body ++ [c!"}"]
  | .reserved x => printReserved x
  | .extensions x => printExtensions x
  | .rpc x => printRPC x

/-- The pieces of a body. -/
def printAll : List Visitee → List Str
  | [] => []
  | v :: vs => print v ++ printAll vs
end

/-- The text of a file. -/
def printProto (p : Proto) : Str :=
  pieced ((p.syntax_.toList.flatMap printSyntax) ++ (p.edition.toList.flatMap printEdition) ++ printAll p.protoBody)

/-! ## What is printed -/

mutual
/-- An element without comments, positions and empty statements. -/
def core : Visitee → Visitee
  | .message ⟨nm, body, _, _, _, _⟩ => .message { messageName := nm, messageBody := coreAll body, info := {} }
  | .enum ⟨nm, body, _, _, _, _⟩ => .enum { enumName := nm, enumBody := coreAll body, info := {} }
  | .service ⟨nm, body, _, _, _, _⟩ => .service { serviceName := nm, serviceBody := coreAll body, info := {} }
  | .extend ⟨nm, body, _, _, _, _⟩ => .extend { messageType := nm, extendBody := coreAll body, info := {} }
  | .groupField ⟨a, b, c, nm, body, num, _, _, _, _⟩ =>
    .groupField { isRepeated := a, isRequired := b, isOptional := c, groupName := nm,
                  messageBody := coreAll body, fieldNumber := num, info := {} }
  | .nil => .nil
  | .comment _ => .nil
  | .emptyStatement _ => .emptyStatement {}
  | .importStmt x => .importStmt (bareImport x)
  | .package x => .package (barePackage x)
  | .option x => .option (bareOption x)
  | .field x => .field (bareField x)
  | .enumField x => .enumField (bareEnumField x)
  | .oneof x => .oneof (bareOneof x)
  | .mapField x => .mapField (bareMapField x)
  | .reserved x => .reserved (bareReserved x)
  | .extensions x => .extensions (bareExtensions x)
  | .rpc x => .rpc (bareRPC x)

/-- A body without comments, positions, empty statements and nil elements. -/
def coreAll : List Visitee → List Visitee
  | [] => []
  | v :: vs =>
    match v with
    | .nil => coreAll vs
    | .comment _ => coreAll vs
    | .emptyStatement _ => coreAll vs
    | v => core v :: coreAll vs
end

/-- A file without comments, positions, empty statements and nil elements (and file name). -/
def coreProto (p : Proto) : Proto :=
  { syntax_ := p.syntax_.map bareSyntax, edition := p.edition.map bareEdition,
    protoBody := coreAll p.protoBody, metaFilename := [] }

/-- The string literals among the spellings can be merged: none of them has a quote of its own kind before
its last quote (which is then escaped), and adjacent ones have the same quotes. -/
structure Mergeable (ws : List Str) : Prop where
  tail : ∀ w ∈ ws, StrLit w → ∀ q b, w = q :: b ++ [q] → b.getLast? ≠ some q
  alike : ∀ v w, [v, w] <:+: ws → StrLit v → StrLit w → v.head? = w.head?

end Verif.Spec
