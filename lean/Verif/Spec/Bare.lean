import Verif.Model.Ast

/-!
# Trees without comments and positions
-/

namespace Verif.Spec

def bareSyntax (x : Syntax) : Syntax := { x with comments := [], inlineComment := none, info := {} }
def bareEdition (x : Edition) : Edition := { x with comments := [], inlineComment := none, info := {} }
def bareImport (x : Import) : Import := { x with comments := [], inlineComment := none, info := {} }
def barePackage (x : Package) : Package := { x with comments := [], inlineComment := none, info := {} }
def bareOption (x : OptionStmt) : OptionStmt :=
  { x with comments := [], inlineComment := none, info := {} }
def bareField (x : Field) : Field := { x with comments := [], inlineComment := none, info := {} }
def bareMapField (x : MapField) : MapField :=
  { x with comments := [], inlineComment := none, info := {} }
def bareOneofField (x : OneofField) : OneofField :=
  { x with comments := [], inlineComment := none, info := {} }
def bareOneof (x : Oneof) : Oneof :=
  { oneofFields := x.oneofFields.map bareOneofField, oneofName := x.oneofName,
    options := x.options.map bareOption, info := {} }
def bareEnumField (x : EnumField) : EnumField :=
  { x with comments := [], inlineComment := none, info := {} }
def bareReserved (x : Reserved) : Reserved :=
  { x with comments := [], inlineComment := none, info := {} }
def bareDeclaration (x : Declaration) : Declaration :=
  { x with comments := [], inlineComment := none, inlineCommentBehindLeftCurly := none, info := {} }
def bareExtensions (x : Extensions) : Extensions :=
  { ranges := x.ranges, declarations := x.declarations.map bareDeclaration, info := {} }
def bareRPCMessage (x : RPCMessage) : RPCMessage := { x with info := {} }
def bareRPC (x : RPC) : RPC :=
  { rpcName := x.rpcName, rpcRequest := bareRPCMessage x.rpcRequest,
    rpcResponse := bareRPCMessage x.rpcResponse, options := x.options.map bareOption, info := {} }

mutual
/-- An element without comments and positions. -/
def bare : Visitee → Visitee
  | .nil => .nil
  | .comment _ => .nil
  | .importStmt x => .importStmt (bareImport x)
  | .package x => .package (barePackage x)
  | .option x => .option (bareOption x)
  | .message ⟨nm, body, _, _, _, _⟩ => .message { messageName := nm, messageBody := bareAll body, info := {} }
  | .enum ⟨nm, body, _, _, _, _⟩ => .enum { enumName := nm, enumBody := bareAll body, info := {} }
  | .service ⟨nm, body, _, _, _, _⟩ => .service { serviceName := nm, serviceBody := bareAll body, info := {} }
  | .extend ⟨nm, body, _, _, _, _⟩ => .extend { messageType := nm, extendBody := bareAll body, info := {} }
  | .emptyStatement _ => .emptyStatement {}
  | .field x => .field (bareField x)
  | .enumField x => .enumField (bareEnumField x)
  | .oneof x => .oneof (bareOneof x)
  | .mapField x => .mapField (bareMapField x)
  | .groupField ⟨a, b, c, nm, body, num, _, _, _, _⟩ =>
    .groupField { isRepeated := a, isRequired := b, isOptional := c, groupName := nm,
                  messageBody := bareAll body, fieldNumber := num, info := {} }
  | .reserved x => .reserved (bareReserved x)
  | .extensions x => .extensions (bareExtensions x)
  | .rpc x => .rpc (bareRPC x)

/-- A body without comments and positions; the elements that are comments are left out. -/
def bareAll : List Visitee → List Visitee
  | [] => []
  | v :: vs =>
    match v with
    | .comment _ => bareAll vs
    | v => bare v :: bareAll vs
end

/-- A file without comments and positions (and file name). -/
def bareProto (p : Proto) : Proto :=
  { syntax_ := p.syntax_.map bareSyntax, edition := p.edition.map bareEdition,
    protoBody := bareAll p.protoBody, metaFilename := [] }

/-- What the parser makes of the elements of a file: a nil element follows an empty statement. -/
def withNils (vs : List Visitee) : List Visitee :=
  vs.flatMap fun v => match v with
    | .emptyStatement e => [.emptyStatement e, .nil]
    | v => [v]

/-- The tree that the parser makes of a file, without comments and positions. -/
def fileTree (p : Proto) : Proto := { bareProto p with protoBody := withNils (bareAll p.protoBody) }

end Verif.Spec
