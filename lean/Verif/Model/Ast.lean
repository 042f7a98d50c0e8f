import Verif.Model.Lexer

/-!
# The syntax tree

Models the struct types of the `parser` package.  A `[]Visitee` is a list of `Visitee`; the value
`Visitee.nil` is the nil interface value, which the code does put into a proto body (proto.go:108,
163-172).
-/

namespace Verif

/-- `parser.Comment`: comment.go:17-22. -/
structure Comment where
  raw : Str
  info : Meta
  deriving DecidableEq, Repr

/-- `parser.EmptyStatement`: emptyStatement.go:4-7. -/
structure EmptyStatement where
  inlineComment : Option Comment := none
  deriving DecidableEq, Repr

/-- `parser.Syntax`: syntax.go:9-21. -/
structure Syntax where
  protobufVersion : Str
  protobufVersionQuote : Str
  comments : List Comment := []
  inlineComment : Option Comment := none
  info : Meta
  deriving DecidableEq, Repr

/-- `parser.Edition`: edition.go:9-21. -/
structure Edition where
  edition : Str
  editionQuote : Str
  comments : List Comment := []
  inlineComment : Option Comment := none
  info : Meta
  deriving DecidableEq, Repr

/-- `parser.ImportModifier`: import.go:9-16. -/
inductive ImportModifier where
  | none | «public» | weak
  deriving DecidableEq, Repr

/-- `parser.Import`: import.go:19-29. -/
structure Import where
  modifier : ImportModifier
  location : Str
  comments : List Comment := []
  inlineComment : Option Comment := none
  info : Meta
  deriving DecidableEq, Repr

/-- `parser.Package`: package.go:9-18. -/
structure Package where
  name : Str
  comments : List Comment := []
  inlineComment : Option Comment := none
  info : Meta
  deriving DecidableEq, Repr

/-- `parser.Option`: option.go:11-21. -/
structure OptionStmt where
  optionName : Str
  constant : Str
  comments : List Comment := []
  inlineComment : Option Comment := none
  info : Meta
  deriving DecidableEq, Repr

/-- `parser.FieldOption`: field.go:9-12, and `parser.EnumValueOption`: enum.go:24-27 (the same
two fields). -/
structure FieldOption where
  optionName : Str
  constant : Str
  deriving DecidableEq, Repr

/-- `parser.Field`: field.go:15-30. -/
structure Field where
  isRepeated : Bool
  isRequired : Bool
  isOptional : Bool
  type : Str
  fieldName : Str
  fieldNumber : Str
  fieldOptions : List FieldOption
  comments : List Comment := []
  inlineComment : Option Comment := none
  info : Meta
  deriving DecidableEq, Repr

/-- `parser.MapField`: mapField.go:9-22. -/
structure MapField where
  keyType : Str
  type : Str
  mapName : Str
  fieldNumber : Str
  fieldOptions : List FieldOption
  comments : List Comment := []
  inlineComment : Option Comment := none
  info : Meta
  deriving DecidableEq, Repr

/-- `parser.OneofField`: oneof.go:9-21. -/
structure OneofField where
  type : Str
  fieldName : Str
  fieldNumber : Str
  fieldOptions : List FieldOption
  comments : List Comment := []
  inlineComment : Option Comment := none
  info : Meta
  deriving DecidableEq, Repr

/-- `parser.Oneof`: oneof.go:43-57. -/
structure Oneof where
  oneofFields : List OneofField
  oneofName : Str
  options : List OptionStmt
  comments : List Comment := []
  inlineComment : Option Comment := none
  inlineCommentBehindLeftCurly : Option Comment := none
  info : Meta
  deriving DecidableEq, Repr

/-- `parser.EnumField`: enum.go:30-41. -/
structure EnumField where
  ident : Str
  number : Str
  enumValueOptions : List FieldOption
  comments : List Comment := []
  inlineComment : Option Comment := none
  info : Meta
  deriving DecidableEq, Repr

/-- `parser.Range`: reserved.go:20-23.  An absent `End` is the empty string, as in Go. -/
structure Range where
  begin_ : Str
  end_ : Str := []
  deriving DecidableEq, Repr

/-- `parser.Reserved`: reserved.go:27-37. -/
structure Reserved where
  ranges : List Range
  fieldNames : List Str
  comments : List Comment := []
  inlineComment : Option Comment := none
  info : Meta
  deriving DecidableEq, Repr

/-- `parser.Declaration`: declaration.go:9-24. -/
structure Declaration where
  number : Str
  fullName : Str
  type : Str
  reserved : Bool
  repeated : Bool
  comments : List Comment := []
  inlineComment : Option Comment := none
  inlineCommentBehindLeftCurly : Option Comment := none
  info : Meta
  deriving DecidableEq, Repr

/-- `parser.Extensions`: extensions.go:9-21. -/
structure Extensions where
  ranges : List Range
  declarations : List Declaration
  comments : List Comment := []
  inlineComment : Option Comment := none
  inlineCommentBehindLeftSquare : Option Comment := none
  info : Meta
  deriving DecidableEq, Repr

/-- `parser.RPCRequest` and `parser.RPCResponse`: service.go:9-24 (the same fields). -/
structure RPCMessage where
  isStream : Bool
  messageType : Str
  info : Meta
  deriving DecidableEq, Repr

/-- `parser.RPC`: service.go:27-43. -/
structure RPC where
  rpcName : Str
  rpcRequest : RPCMessage
  rpcResponse : RPCMessage
  options : List OptionStmt
  comments : List Comment := []
  inlineComment : Option Comment := none
  inlineCommentBehindLeftCurly : Option Comment := none
  embeddedComments : List Comment := []
  info : Meta
  deriving DecidableEq, Repr

/-- `parser.Message`: message.go:24-38; `V` is `Visitee`. -/
structure MessageOf (V : Type) where
  messageName : Str
  messageBody : List V
  comments : List Comment := []
  inlineComment : Option Comment := none
  inlineCommentBehindLeftCurly : Option Comment := none
  info : Meta
  deriving Repr

/-- `parser.GroupField`: groupField.go:12-31. -/
structure GroupFieldOf (V : Type) where
  isRepeated : Bool
  isRequired : Bool
  isOptional : Bool
  groupName : Str
  messageBody : List V
  fieldNumber : Str
  comments : List Comment := []
  inlineComment : Option Comment := none
  inlineCommentBehindLeftCurly : Option Comment := none
  info : Meta
  deriving Repr

/-- `parser.Enum`: enum.go:63-77. -/
structure EnumOf (V : Type) where
  enumName : Str
  enumBody : List V
  comments : List Comment := []
  inlineComment : Option Comment := none
  inlineCommentBehindLeftCurly : Option Comment := none
  info : Meta
  deriving Repr

/-- `parser.Extend`: extend.go:24-37. -/
structure ExtendOf (V : Type) where
  messageType : Str
  extendBody : List V
  comments : List Comment := []
  inlineComment : Option Comment := none
  inlineCommentBehindLeftCurly : Option Comment := none
  info : Meta
  deriving Repr

/-- `parser.Service`: service.go:65-78. -/
structure ServiceOf (V : Type) where
  serviceName : Str
  serviceBody : List V
  comments : List Comment := []
  inlineComment : Option Comment := none
  inlineCommentBehindLeftCurly : Option Comment := none
  info : Meta
  deriving Repr

/-- `parser.Visitee` (visitee.go:4-6): the dynamic values that occur in the bodies.  `nil` is the
nil interface value. -/
inductive Visitee where
  | nil
  | comment (c : Comment)
  | importStmt (i : Import)
  | package (p : Package)
  | option (o : OptionStmt)
  | message (m : MessageOf Visitee)
  | enum (e : EnumOf Visitee)
  | service (s : ServiceOf Visitee)
  | extend (e : ExtendOf Visitee)
  | emptyStatement (e : EmptyStatement)
  | field (f : Field)
  | enumField (f : EnumField)
  | oneof (o : Oneof)
  | mapField (m : MapField)
  | groupField (g : GroupFieldOf Visitee)
  | reserved (r : Reserved)
  | extensions (e : Extensions)
  | rpc (r : RPC)
  deriving Repr

abbrev Message := MessageOf Visitee
abbrev GroupField := GroupFieldOf Visitee
abbrev Enum := EnumOf Visitee
abbrev Extend := ExtendOf Visitee
abbrev Service := ServiceOf Visitee

/-- `parser.Proto`: proto.go:12-18 (`Meta` is `ProtoMeta`, proto.go:6-9: just the file name). -/
structure Proto where
  syntax_ : Option Syntax
  edition : Option Edition
  protoBody : List Visitee
  metaFilename : Str
  deriving Repr

end Verif
