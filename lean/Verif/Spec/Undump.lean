import Verif.Model.Dump

/-!
# Reading a dump

How a consumer of the output of the dump command reads it: they parse the JSON text, and pick the fields of the
objects by their names, which are the names of the fields of the Go structs; the order of the fields does not matter,
and fields that they do not ask for are ignored.  (`json.Unmarshal` reads structs in this way.)  `null` is a nil
slice or pointer.  What a value in a body is, can be told from the fields that it has.
-/

namespace Verif.Spec.Undump
open Verif Json

/-- The field of this name. -/
def key : Json → Str → Option Json
  | .obj fs, k => (fs.find? fun f => f.1 = k).map (·.2)
  | _, _ => none

def asStr : Json → Option Str
  | .str s => some s
  | _ => none

def asBool : Json → Option Bool
  | .bool b => some b
  | _ => none

def asInt : Json → Option Int
  | .num n => some n
  | _ => none

/-- All items of a list. -/
def readAll {α : Type} (f : Json → Option α) : List Json → Option (List α)
  | [] => some []
  | x :: xs => do
    let y ← f x
    let ys ← readAll f xs
    return y :: ys

/-- A slice. -/
def sliceOf {α : Type} (f : Json → Option α) : Json → Option (List α)
  | .null => some []
  | .arr xs => readAll f xs
  | _ => none

/-- A pointer. -/
def ptrOf {α : Type} (f : Json → Option α) : Json → Option (Option α)
  | .null => some none
  | j => (f j).map some

/-- The number of an import modifier: `ImportModifierNone`, `ImportModifierPublic`, `ImportModifierWeak`. -/
def asModifier : Json → Option ImportModifier
  | .num 0 => some .none
  | .num 1 => some .public
  | .num 2 => some .weak
  | _ => none

/-- A `meta.Position`. -/
def readPosition (j : Json) : Option Position := do
  let filename ← (key j c!"Filename").bind asStr
  let offset ← (key j c!"Offset").bind asInt
  let line ← (key j c!"Line").bind asInt
  let column ← (key j c!"Column").bind asInt
  return { filename, offset, line, column }

/-- A `meta.Meta`. -/
def readMeta (j : Json) : Option Meta := do
  let pos ← (key j c!"Pos").bind readPosition
  let lastPos ← (key j c!"LastPos").bind readPosition
  return { pos, lastPos }

/-- A `parser.Comment`. -/
def readComment (j : Json) : Option Comment := do
  let raw ← (key j c!"Raw").bind asStr
  let info ← (key j c!"Meta").bind readMeta
  return { raw, info }

/-- A `parser.EmptyStatement`. -/
def readEmptyStatement (j : Json) : Option EmptyStatement := do
  let inlineComment ← (key j c!"InlineComment").bind (ptrOf readComment)
  return { inlineComment }

/-- A `parser.Syntax`. -/
def readSyntax (j : Json) : Option Syntax := do
  let protobufVersion ← (key j c!"ProtobufVersion").bind asStr
  let protobufVersionQuote ← (key j c!"ProtobufVersionQuote").bind asStr
  let comments ← (key j c!"Comments").bind (sliceOf readComment)
  let inlineComment ← (key j c!"InlineComment").bind (ptrOf readComment)
  let info ← (key j c!"Meta").bind readMeta
  return { protobufVersion, protobufVersionQuote, comments, inlineComment, info }

/-- A `parser.Edition`. -/
def readEdition (j : Json) : Option Edition := do
  let edition ← (key j c!"Edition").bind asStr
  let editionQuote ← (key j c!"EditionQuote").bind asStr
  let comments ← (key j c!"Comments").bind (sliceOf readComment)
  let inlineComment ← (key j c!"InlineComment").bind (ptrOf readComment)
  let info ← (key j c!"Meta").bind readMeta
  return { edition, editionQuote, comments, inlineComment, info }

/-- A `parser.Import`. -/
def readImport (j : Json) : Option Import := do
  let modifier ← (key j c!"Modifier").bind asModifier
  let location ← (key j c!"Location").bind asStr
  let comments ← (key j c!"Comments").bind (sliceOf readComment)
  let inlineComment ← (key j c!"InlineComment").bind (ptrOf readComment)
  let info ← (key j c!"Meta").bind readMeta
  return { modifier, location, comments, inlineComment, info }

/-- A `parser.Package`. -/
def readPackage (j : Json) : Option Package := do
  let name ← (key j c!"Name").bind asStr
  let comments ← (key j c!"Comments").bind (sliceOf readComment)
  let inlineComment ← (key j c!"InlineComment").bind (ptrOf readComment)
  let info ← (key j c!"Meta").bind readMeta
  return { name, comments, inlineComment, info }

/-- A `parser.Option`. -/
def readOptionStmt (j : Json) : Option OptionStmt := do
  let optionName ← (key j c!"OptionName").bind asStr
  let constant ← (key j c!"Constant").bind asStr
  let comments ← (key j c!"Comments").bind (sliceOf readComment)
  let inlineComment ← (key j c!"InlineComment").bind (ptrOf readComment)
  let info ← (key j c!"Meta").bind readMeta
  return { optionName, constant, comments, inlineComment, info }

/-- A `parser.FieldOption` and `parser.EnumValueOption`. -/
def readFieldOption (j : Json) : Option FieldOption := do
  let optionName ← (key j c!"OptionName").bind asStr
  let constant ← (key j c!"Constant").bind asStr
  return { optionName, constant }

/-- A `parser.Field`. -/
def readField (j : Json) : Option Field := do
  let isRepeated ← (key j c!"IsRepeated").bind asBool
  let isRequired ← (key j c!"IsRequired").bind asBool
  let isOptional ← (key j c!"IsOptional").bind asBool
  let type ← (key j c!"Type").bind asStr
  let fieldName ← (key j c!"FieldName").bind asStr
  let fieldNumber ← (key j c!"FieldNumber").bind asStr
  let fieldOptions ← (key j c!"FieldOptions").bind (sliceOf readFieldOption)
  let comments ← (key j c!"Comments").bind (sliceOf readComment)
  let inlineComment ← (key j c!"InlineComment").bind (ptrOf readComment)
  let info ← (key j c!"Meta").bind readMeta
  return { isRepeated, isRequired, isOptional, type, fieldName, fieldNumber, fieldOptions, comments, inlineComment, info }

/-- A `parser.MapField`. -/
def readMapField (j : Json) : Option MapField := do
  let keyType ← (key j c!"KeyType").bind asStr
  let type ← (key j c!"Type").bind asStr
  let mapName ← (key j c!"MapName").bind asStr
  let fieldNumber ← (key j c!"FieldNumber").bind asStr
  let fieldOptions ← (key j c!"FieldOptions").bind (sliceOf readFieldOption)
  let comments ← (key j c!"Comments").bind (sliceOf readComment)
  let inlineComment ← (key j c!"InlineComment").bind (ptrOf readComment)
  let info ← (key j c!"Meta").bind readMeta
  return { keyType, type, mapName, fieldNumber, fieldOptions, comments, inlineComment, info }

/-- A `parser.OneofField`. -/
def readOneofField (j : Json) : Option OneofField := do
  let type ← (key j c!"Type").bind asStr
  let fieldName ← (key j c!"FieldName").bind asStr
  let fieldNumber ← (key j c!"FieldNumber").bind asStr
  let fieldOptions ← (key j c!"FieldOptions").bind (sliceOf readFieldOption)
  let comments ← (key j c!"Comments").bind (sliceOf readComment)
  let inlineComment ← (key j c!"InlineComment").bind (ptrOf readComment)
  let info ← (key j c!"Meta").bind readMeta
  return { type, fieldName, fieldNumber, fieldOptions, comments, inlineComment, info }

/-- A `parser.Oneof`. -/
def readOneof (j : Json) : Option Oneof := do
  let oneofFields ← (key j c!"OneofFields").bind (sliceOf readOneofField)
  let oneofName ← (key j c!"OneofName").bind asStr
  let options ← (key j c!"Options").bind (sliceOf readOptionStmt)
  let comments ← (key j c!"Comments").bind (sliceOf readComment)
  let inlineComment ← (key j c!"InlineComment").bind (ptrOf readComment)
  let inlineCommentBehindLeftCurly ← (key j c!"InlineCommentBehindLeftCurly").bind (ptrOf readComment)
  let info ← (key j c!"Meta").bind readMeta
  return { oneofFields, oneofName, options, comments, inlineComment, inlineCommentBehindLeftCurly, info }

/-- A `parser.EnumField`. -/
def readEnumField (j : Json) : Option EnumField := do
  let ident ← (key j c!"Ident").bind asStr
  let number ← (key j c!"Number").bind asStr
  let enumValueOptions ← (key j c!"EnumValueOptions").bind (sliceOf readFieldOption)
  let comments ← (key j c!"Comments").bind (sliceOf readComment)
  let inlineComment ← (key j c!"InlineComment").bind (ptrOf readComment)
  let info ← (key j c!"Meta").bind readMeta
  return { ident, number, enumValueOptions, comments, inlineComment, info }

/-- A `parser.Range`. -/
def readRange (j : Json) : Option Range := do
  let begin_ ← (key j c!"Begin").bind asStr
  let end_ ← (key j c!"End").bind asStr
  return { begin_, end_ }

/-- A `parser.Reserved`. -/
def readReserved (j : Json) : Option Reserved := do
  let ranges ← (key j c!"Ranges").bind (sliceOf readRange)
  let fieldNames ← (key j c!"FieldNames").bind (sliceOf asStr)
  let comments ← (key j c!"Comments").bind (sliceOf readComment)
  let inlineComment ← (key j c!"InlineComment").bind (ptrOf readComment)
  let info ← (key j c!"Meta").bind readMeta
  return { ranges, fieldNames, comments, inlineComment, info }

/-- A `parser.Declaration`. -/
def readDeclaration (j : Json) : Option Declaration := do
  let number ← (key j c!"Number").bind asStr
  let fullName ← (key j c!"FullName").bind asStr
  let type ← (key j c!"Type").bind asStr
  let reserved ← (key j c!"Reserved").bind asBool
  let repeated ← (key j c!"Repeated").bind asBool
  let comments ← (key j c!"Comments").bind (sliceOf readComment)
  let inlineComment ← (key j c!"InlineComment").bind (ptrOf readComment)
  let inlineCommentBehindLeftCurly ← (key j c!"InlineCommentBehindLeftCurly").bind (ptrOf readComment)
  let info ← (key j c!"Meta").bind readMeta
  return { number, fullName, type, reserved, repeated, comments, inlineComment, inlineCommentBehindLeftCurly, info }

/-- A `parser.Extensions`. -/
def readExtensions (j : Json) : Option Extensions := do
  let ranges ← (key j c!"Ranges").bind (sliceOf readRange)
  let declarations ← (key j c!"Declarations").bind (sliceOf readDeclaration)
  let comments ← (key j c!"Comments").bind (sliceOf readComment)
  let inlineComment ← (key j c!"InlineComment").bind (ptrOf readComment)
  let inlineCommentBehindLeftSquare ← (key j c!"InlineCommentBehindLeftSquare").bind (ptrOf readComment)
  let info ← (key j c!"Meta").bind readMeta
  return { ranges, declarations, comments, inlineComment, inlineCommentBehindLeftSquare, info }

/-- A `parser.RPCRequest` and `parser.RPCResponse`. -/
def readRPCMessage (j : Json) : Option RPCMessage := do
  let isStream ← (key j c!"IsStream").bind asBool
  let messageType ← (key j c!"MessageType").bind asStr
  let info ← (key j c!"Meta").bind readMeta
  return { isStream, messageType, info }

/-- A `parser.RPC`. -/
def readRPC (j : Json) : Option RPC := do
  let rpcName ← (key j c!"RPCName").bind asStr
  let rpcRequest ← (key j c!"RPCRequest").bind readRPCMessage
  let rpcResponse ← (key j c!"RPCResponse").bind readRPCMessage
  let options ← (key j c!"Options").bind (sliceOf readOptionStmt)
  let comments ← (key j c!"Comments").bind (sliceOf readComment)
  let inlineComment ← (key j c!"InlineComment").bind (ptrOf readComment)
  let inlineCommentBehindLeftCurly ← (key j c!"InlineCommentBehindLeftCurly").bind (ptrOf readComment)
  let embeddedComments ← (key j c!"EmbeddedComments").bind (sliceOf readComment)
  let info ← (key j c!"Meta").bind readMeta
  return { rpcName, rpcRequest, rpcResponse, options, comments, inlineComment, inlineCommentBehindLeftCurly, embeddedComments, info }

/-- A `parser.Message`; `v` reads the values of the body. -/
def readMessage (v : Json → Option Visitee) (j : Json) : Option Message := do
  let messageName ← (key j c!"MessageName").bind asStr
  let messageBody ← (key j c!"MessageBody").bind (sliceOf v)
  let comments ← (key j c!"Comments").bind (sliceOf readComment)
  let inlineComment ← (key j c!"InlineComment").bind (ptrOf readComment)
  let inlineCommentBehindLeftCurly ← (key j c!"InlineCommentBehindLeftCurly").bind (ptrOf readComment)
  let info ← (key j c!"Meta").bind readMeta
  return { messageName, messageBody, comments, inlineComment, inlineCommentBehindLeftCurly, info }

/-- A `parser.GroupField`. -/
def readGroupField (v : Json → Option Visitee) (j : Json) : Option GroupField := do
  let isRepeated ← (key j c!"IsRepeated").bind asBool
  let isRequired ← (key j c!"IsRequired").bind asBool
  let isOptional ← (key j c!"IsOptional").bind asBool
  let groupName ← (key j c!"GroupName").bind asStr
  let messageBody ← (key j c!"MessageBody").bind (sliceOf v)
  let fieldNumber ← (key j c!"FieldNumber").bind asStr
  let comments ← (key j c!"Comments").bind (sliceOf readComment)
  let inlineComment ← (key j c!"InlineComment").bind (ptrOf readComment)
  let inlineCommentBehindLeftCurly ← (key j c!"InlineCommentBehindLeftCurly").bind (ptrOf readComment)
  let info ← (key j c!"Meta").bind readMeta
  return { isRepeated, isRequired, isOptional, groupName, messageBody, fieldNumber, comments, inlineComment, inlineCommentBehindLeftCurly, info }

/-- A `parser.Enum`. -/
def readEnum (v : Json → Option Visitee) (j : Json) : Option Enum := do
  let enumName ← (key j c!"EnumName").bind asStr
  let enumBody ← (key j c!"EnumBody").bind (sliceOf v)
  let comments ← (key j c!"Comments").bind (sliceOf readComment)
  let inlineComment ← (key j c!"InlineComment").bind (ptrOf readComment)
  let inlineCommentBehindLeftCurly ← (key j c!"InlineCommentBehindLeftCurly").bind (ptrOf readComment)
  let info ← (key j c!"Meta").bind readMeta
  return { enumName, enumBody, comments, inlineComment, inlineCommentBehindLeftCurly, info }

/-- A `parser.Extend`. -/
def readExtend (v : Json → Option Visitee) (j : Json) : Option Extend := do
  let messageType ← (key j c!"MessageType").bind asStr
  let extendBody ← (key j c!"ExtendBody").bind (sliceOf v)
  let comments ← (key j c!"Comments").bind (sliceOf readComment)
  let inlineComment ← (key j c!"InlineComment").bind (ptrOf readComment)
  let inlineCommentBehindLeftCurly ← (key j c!"InlineCommentBehindLeftCurly").bind (ptrOf readComment)
  let info ← (key j c!"Meta").bind readMeta
  return { messageType, extendBody, comments, inlineComment, inlineCommentBehindLeftCurly, info }

/-- A `parser.Service`. -/
def readService (v : Json → Option Visitee) (j : Json) : Option Service := do
  let serviceName ← (key j c!"ServiceName").bind asStr
  let serviceBody ← (key j c!"ServiceBody").bind (sliceOf v)
  let comments ← (key j c!"Comments").bind (sliceOf readComment)
  let inlineComment ← (key j c!"InlineComment").bind (ptrOf readComment)
  let inlineCommentBehindLeftCurly ← (key j c!"InlineCommentBehindLeftCurly").bind (ptrOf readComment)
  let info ← (key j c!"Meta").bind readMeta
  return { serviceName, serviceBody, comments, inlineComment, inlineCommentBehindLeftCurly, info }

/-- Whether there is a field of this name. -/
def has (j : Json) (k : Str) : Bool := (key j k).isSome

/-- A value in a body, at most so deep. -/
def readVisitee : Nat → Json → Option Visitee
  | 0, _ => none
  | _ + 1, .null => some .nil
  | n + 1, j =>
    if has j c!"Raw" then (readComment j).map .comment
    else if has j c!"Modifier" then (readImport j).map .importStmt
    else if has j c!"Name" then (readPackage j).map .package
    else if has j c!"OptionName" then (readOptionStmt j).map .option
    else if has j c!"MessageName" then (readMessage (readVisitee n) j).map .message
    else if has j c!"EnumName" then (readEnum (readVisitee n) j).map .enum
    else if has j c!"ServiceName" then (readService (readVisitee n) j).map .service
    else if has j c!"ExtendBody" then (readExtend (readVisitee n) j).map .extend
    else if has j c!"FieldName" then (readField j).map .field
    else if has j c!"Ident" then (readEnumField j).map .enumField
    else if has j c!"OneofName" then (readOneof j).map .oneof
    else if has j c!"MapName" then (readMapField j).map .mapField
    else if has j c!"GroupName" then (readGroupField (readVisitee n) j).map .groupField
    else if has j c!"FieldNames" then (readReserved j).map .reserved
    else if has j c!"Declarations" then (readExtensions j).map .extensions
    else if has j c!"RPCName" then (readRPC j).map .rpc
    else (readEmptyStatement j).map .emptyStatement

/-- The `ProtoMeta`: the name of the file. -/
def readProtoMeta (j : Json) : Option Str := (key j c!"Filename").bind asStr

/-- A `parser.Proto`. -/
def readProto (j : Json) : Option Proto := do
  let syntax_ ← (key j c!"Syntax").bind (ptrOf readSyntax)
  let edition ← (key j c!"Edition").bind (ptrOf readEdition)
  let protoBody ← (key j c!"ProtoBody").bind (sliceOf (readVisitee j.depth))
  let metaFilename ← (key j c!"Meta").bind readProtoMeta
  return { syntax_, edition, protoBody, metaFilename }

open Unordered

/-- A `unordered.EnumBody`. -/
def readEnumBody (j : Json) : Option EnumBody := do
  let options ← (key j c!"Options").bind (sliceOf readOptionStmt)
  let enumFields ← (key j c!"EnumFields").bind (sliceOf readEnumField)
  let reserveds ← (key j c!"Reserveds").bind (sliceOf readReserved)
  let emptyStatements ← (key j c!"EmptyStatements").bind (sliceOf readEmptyStatement)
  return { options, enumFields, reserveds, emptyStatements }

/-- A `unordered.Enum`. -/
def readUEnum (j : Json) : Option UEnum := do
  let enumName ← (key j c!"EnumName").bind asStr
  let enumBody ← (key j c!"EnumBody").bind readEnumBody
  let comments ← (key j c!"Comments").bind (sliceOf readComment)
  let inlineComment ← (key j c!"InlineComment").bind (ptrOf readComment)
  let inlineCommentBehindLeftCurly ← (key j c!"InlineCommentBehindLeftCurly").bind (ptrOf readComment)
  let info ← (key j c!"Meta").bind readMeta
  return { enumName, enumBody, comments, inlineComment, inlineCommentBehindLeftCurly, info }

/-- A `unordered.ExtendBody`. -/
def readExtendBody (j : Json) : Option ExtendBody := do
  let fields ← (key j c!"Fields").bind (sliceOf readField)
  let emptyStatements ← (key j c!"EmptyStatements").bind (sliceOf readEmptyStatement)
  return { fields, emptyStatements }

/-- A `unordered.Extend`. -/
def readUExtend (j : Json) : Option UExtend := do
  let messageType ← (key j c!"MessageType").bind asStr
  let extendBody ← (key j c!"ExtendBody").bind readExtendBody
  let comments ← (key j c!"Comments").bind (sliceOf readComment)
  let inlineComment ← (key j c!"InlineComment").bind (ptrOf readComment)
  let inlineCommentBehindLeftCurly ← (key j c!"InlineCommentBehindLeftCurly").bind (ptrOf readComment)
  let info ← (key j c!"Meta").bind readMeta
  return { messageType, extendBody, comments, inlineComment, inlineCommentBehindLeftCurly, info }

/-- A `unordered.ServiceBody`. -/
def readServiceBody (j : Json) : Option ServiceBody := do
  let options ← (key j c!"Options").bind (sliceOf readOptionStmt)
  let rpcs ← (key j c!"RPCs").bind (sliceOf readRPC)
  return { options, rpcs }

/-- A `unordered.Service`. -/
def readUService (j : Json) : Option UService := do
  let serviceName ← (key j c!"ServiceName").bind asStr
  let serviceBody ← (key j c!"ServiceBody").bind readServiceBody
  let comments ← (key j c!"Comments").bind (sliceOf readComment)
  let inlineComment ← (key j c!"InlineComment").bind (ptrOf readComment)
  let inlineCommentBehindLeftCurly ← (key j c!"InlineCommentBehindLeftCurly").bind (ptrOf readComment)
  let info ← (key j c!"Meta").bind readMeta
  return { serviceName, serviceBody, comments, inlineComment, inlineCommentBehindLeftCurly, info }

/-- A `unordered.MessageBody`; `u` reads the messages in it, `v` the values in the bodies of its groups and extends. -/
def readMessageBody (u : Json → Option UMessage) (v : Json → Option Visitee) (j : Json) : Option MessageBody := do
  let fields ← (key j c!"Fields").bind (sliceOf readField)
  let enums ← (key j c!"Enums").bind (sliceOf readUEnum)
  let messages ← (key j c!"Messages").bind (sliceOf u)
  let options ← (key j c!"Options").bind (sliceOf readOptionStmt)
  let oneofs ← (key j c!"Oneofs").bind (sliceOf readOneof)
  let maps ← (key j c!"Maps").bind (sliceOf readMapField)
  let groups ← (key j c!"Groups").bind (sliceOf (readGroupField v))
  let reserves ← (key j c!"Reserves").bind (sliceOf readReserved)
  let extends_ ← (key j c!"Extends").bind (sliceOf (readExtend v))
  let emptyStatements ← (key j c!"EmptyStatements").bind (sliceOf readEmptyStatement)
  let extensions ← (key j c!"Extensions").bind (sliceOf readExtensions)
  return { fields, enums, messages, options, oneofs, maps, groups, reserves, extends_, emptyStatements, extensions }

/-- A `unordered.Message`, at most so deep. -/
def readUMessage (v : Json → Option Visitee) : Nat → Json → Option UMessage
  | 0, _ => none
  | n + 1, j => do
    let messageName ← (key j c!"MessageName").bind asStr
    let messageBody ← (key j c!"MessageBody").bind (readMessageBody (readUMessage v n) v)
    let comments ← (key j c!"Comments").bind (sliceOf readComment)
    let inlineComment ← (key j c!"InlineComment").bind (ptrOf readComment)
    let inlineCommentBehindLeftCurly ← (key j c!"InlineCommentBehindLeftCurly").bind (ptrOf readComment)
    let info ← (key j c!"Meta").bind readMeta
    return .mk messageName messageBody comments inlineComment inlineCommentBehindLeftCurly info

/-- A `unordered.ProtoBody`. -/
def readProtoBody (j : Json) : Option ProtoBody := do
  let imports ← (key j c!"Imports").bind (sliceOf readImport)
  let packages ← (key j c!"Packages").bind (sliceOf readPackage)
  let options ← (key j c!"Options").bind (sliceOf readOptionStmt)
  let messages ← (key j c!"Messages").bind (sliceOf (readUMessage (readVisitee j.depth) j.depth))
  let extends_ ← (key j c!"Extends").bind (sliceOf readUExtend)
  let enums ← (key j c!"Enums").bind (sliceOf readUEnum)
  let services ← (key j c!"Services").bind (sliceOf readUService)
  let emptyStatements ← (key j c!"EmptyStatements").bind (sliceOf readEmptyStatement)
  return { imports, packages, options, messages, extends_, enums, services, emptyStatements }

/-- A `unordered.Proto`. -/
def readUProto (j : Json) : Option UProto := do
  let syntax_ ← (key j c!"Syntax").bind (ptrOf readSyntax)
  let protoBody ← (key j c!"ProtoBody").bind readProtoBody
  return { syntax_, protoBody }

end Verif.Spec.Undump
