import Verif.Model.Ast

/-!
# Trees that differ in their positions only

`AlikeProto π skip a b`: the trees `a` and `b` are the same except that each position of `a` is related by
`π` to the one at the same place of `b` and that, if `skip`, either tree can have `Comment` elements in its
bodies that the other one has not.
-/

namespace Verif.Spec

/-- Both absent, or both present and related. -/
inductive AlikeOpt {α : Type} (R : α → α → Prop) : Option α → Option α → Prop
  | none : AlikeOpt R none none
  | some {a b : α} : R a b → AlikeOpt R (some a) (some b)

/-- The same number of elements, related one by one. -/
inductive AlikeList {α : Type} (R : α → α → Prop) : List α → List α → Prop
  | nil : AlikeList R [] []
  | cons {a b : α} {as bs : List α} : R a b → AlikeList R as bs → AlikeList R (a :: as) (b :: bs)

variable (π : Position → Position → Prop)

structure AlikeMeta (a b : Meta) : Prop where
  pos : π a.pos b.pos
  lastPos : π a.lastPos b.lastPos

structure AlikeComment (a b : Comment) : Prop where
  raw : a.raw = b.raw
  info : AlikeMeta π a.info b.info

structure AlikeEmpty (a b : EmptyStatement) : Prop where
  inlineComment : AlikeOpt (AlikeComment π) a.inlineComment b.inlineComment

structure AlikeSyntax (a b : Syntax) : Prop where
  protobufVersion : a.protobufVersion = b.protobufVersion
  protobufVersionQuote : a.protobufVersionQuote = b.protobufVersionQuote
  comments : AlikeList (AlikeComment π) a.comments b.comments
  inlineComment : AlikeOpt (AlikeComment π) a.inlineComment b.inlineComment
  info : AlikeMeta π a.info b.info

structure AlikeEdition (a b : Edition) : Prop where
  edition : a.edition = b.edition
  editionQuote : a.editionQuote = b.editionQuote
  comments : AlikeList (AlikeComment π) a.comments b.comments
  inlineComment : AlikeOpt (AlikeComment π) a.inlineComment b.inlineComment
  info : AlikeMeta π a.info b.info

structure AlikeImport (a b : Import) : Prop where
  modifier : a.modifier = b.modifier
  location : a.location = b.location
  comments : AlikeList (AlikeComment π) a.comments b.comments
  inlineComment : AlikeOpt (AlikeComment π) a.inlineComment b.inlineComment
  info : AlikeMeta π a.info b.info

structure AlikePackage (a b : Package) : Prop where
  name : a.name = b.name
  comments : AlikeList (AlikeComment π) a.comments b.comments
  inlineComment : AlikeOpt (AlikeComment π) a.inlineComment b.inlineComment
  info : AlikeMeta π a.info b.info

structure AlikeOption (a b : OptionStmt) : Prop where
  optionName : a.optionName = b.optionName
  constant : a.constant = b.constant
  comments : AlikeList (AlikeComment π) a.comments b.comments
  inlineComment : AlikeOpt (AlikeComment π) a.inlineComment b.inlineComment
  info : AlikeMeta π a.info b.info

structure AlikeField (a b : Field) : Prop where
  isRepeated : a.isRepeated = b.isRepeated
  isRequired : a.isRequired = b.isRequired
  isOptional : a.isOptional = b.isOptional
  type : a.type = b.type
  fieldName : a.fieldName = b.fieldName
  fieldNumber : a.fieldNumber = b.fieldNumber
  fieldOptions : a.fieldOptions = b.fieldOptions
  comments : AlikeList (AlikeComment π) a.comments b.comments
  inlineComment : AlikeOpt (AlikeComment π) a.inlineComment b.inlineComment
  info : AlikeMeta π a.info b.info

structure AlikeMapField (a b : MapField) : Prop where
  keyType : a.keyType = b.keyType
  type : a.type = b.type
  mapName : a.mapName = b.mapName
  fieldNumber : a.fieldNumber = b.fieldNumber
  fieldOptions : a.fieldOptions = b.fieldOptions
  comments : AlikeList (AlikeComment π) a.comments b.comments
  inlineComment : AlikeOpt (AlikeComment π) a.inlineComment b.inlineComment
  info : AlikeMeta π a.info b.info

structure AlikeOneofField (a b : OneofField) : Prop where
  type : a.type = b.type
  fieldName : a.fieldName = b.fieldName
  fieldNumber : a.fieldNumber = b.fieldNumber
  fieldOptions : a.fieldOptions = b.fieldOptions
  comments : AlikeList (AlikeComment π) a.comments b.comments
  inlineComment : AlikeOpt (AlikeComment π) a.inlineComment b.inlineComment
  info : AlikeMeta π a.info b.info

structure AlikeEnumField (a b : EnumField) : Prop where
  ident : a.ident = b.ident
  number : a.number = b.number
  enumValueOptions : a.enumValueOptions = b.enumValueOptions
  comments : AlikeList (AlikeComment π) a.comments b.comments
  inlineComment : AlikeOpt (AlikeComment π) a.inlineComment b.inlineComment
  info : AlikeMeta π a.info b.info

structure AlikeReserved (a b : Reserved) : Prop where
  ranges : a.ranges = b.ranges
  fieldNames : a.fieldNames = b.fieldNames
  comments : AlikeList (AlikeComment π) a.comments b.comments
  inlineComment : AlikeOpt (AlikeComment π) a.inlineComment b.inlineComment
  info : AlikeMeta π a.info b.info

structure AlikeOneof (a b : Oneof) : Prop where
  oneofFields : AlikeList (AlikeOneofField π) a.oneofFields b.oneofFields
  oneofName : a.oneofName = b.oneofName
  options : AlikeList (AlikeOption π) a.options b.options
  comments : AlikeList (AlikeComment π) a.comments b.comments
  inlineComment : AlikeOpt (AlikeComment π) a.inlineComment b.inlineComment
  inlineCommentBehindLeftCurly : AlikeOpt (AlikeComment π)
    a.inlineCommentBehindLeftCurly b.inlineCommentBehindLeftCurly
  info : AlikeMeta π a.info b.info

structure AlikeDeclaration (a b : Declaration) : Prop where
  number : a.number = b.number
  fullName : a.fullName = b.fullName
  type : a.type = b.type
  reserved : a.reserved = b.reserved
  repeated : a.repeated = b.repeated
  comments : AlikeList (AlikeComment π) a.comments b.comments
  inlineComment : AlikeOpt (AlikeComment π) a.inlineComment b.inlineComment
  inlineCommentBehindLeftCurly : AlikeOpt (AlikeComment π)
    a.inlineCommentBehindLeftCurly b.inlineCommentBehindLeftCurly
  info : AlikeMeta π a.info b.info

structure AlikeExtensions (a b : Extensions) : Prop where
  ranges : a.ranges = b.ranges
  declarations : AlikeList (AlikeDeclaration π) a.declarations b.declarations
  comments : AlikeList (AlikeComment π) a.comments b.comments
  inlineComment : AlikeOpt (AlikeComment π) a.inlineComment b.inlineComment
  inlineCommentBehindLeftSquare : AlikeOpt (AlikeComment π)
    a.inlineCommentBehindLeftSquare b.inlineCommentBehindLeftSquare
  info : AlikeMeta π a.info b.info

structure AlikeRPCMessage (a b : RPCMessage) : Prop where
  isStream : a.isStream = b.isStream
  messageType : a.messageType = b.messageType
  info : AlikeMeta π a.info b.info

structure AlikeRPC (a b : RPC) : Prop where
  rpcName : a.rpcName = b.rpcName
  rpcRequest : AlikeRPCMessage π a.rpcRequest b.rpcRequest
  rpcResponse : AlikeRPCMessage π a.rpcResponse b.rpcResponse
  options : AlikeList (AlikeOption π) a.options b.options
  comments : AlikeList (AlikeComment π) a.comments b.comments
  inlineComment : AlikeOpt (AlikeComment π) a.inlineComment b.inlineComment
  inlineCommentBehindLeftCurly : AlikeOpt (AlikeComment π)
    a.inlineCommentBehindLeftCurly b.inlineCommentBehindLeftCurly
  embeddedComments : AlikeList (AlikeComment π) a.embeddedComments b.embeddedComments
  info : AlikeMeta π a.info b.info

/-! The parts of the blocks other than their bodies. -/

structure AlikeMessage (a b : Message) : Prop where
  messageName : a.messageName = b.messageName
  comments : AlikeList (AlikeComment π) a.comments b.comments
  inlineComment : AlikeOpt (AlikeComment π) a.inlineComment b.inlineComment
  inlineCommentBehindLeftCurly : AlikeOpt (AlikeComment π)
    a.inlineCommentBehindLeftCurly b.inlineCommentBehindLeftCurly
  info : AlikeMeta π a.info b.info

structure AlikeGroupField (a b : GroupField) : Prop where
  isRepeated : a.isRepeated = b.isRepeated
  isRequired : a.isRequired = b.isRequired
  isOptional : a.isOptional = b.isOptional
  groupName : a.groupName = b.groupName
  fieldNumber : a.fieldNumber = b.fieldNumber
  comments : AlikeList (AlikeComment π) a.comments b.comments
  inlineComment : AlikeOpt (AlikeComment π) a.inlineComment b.inlineComment
  inlineCommentBehindLeftCurly : AlikeOpt (AlikeComment π)
    a.inlineCommentBehindLeftCurly b.inlineCommentBehindLeftCurly
  info : AlikeMeta π a.info b.info

structure AlikeEnum (a b : Enum) : Prop where
  enumName : a.enumName = b.enumName
  comments : AlikeList (AlikeComment π) a.comments b.comments
  inlineComment : AlikeOpt (AlikeComment π) a.inlineComment b.inlineComment
  inlineCommentBehindLeftCurly : AlikeOpt (AlikeComment π)
    a.inlineCommentBehindLeftCurly b.inlineCommentBehindLeftCurly
  info : AlikeMeta π a.info b.info

structure AlikeExtend (a b : Extend) : Prop where
  messageType : a.messageType = b.messageType
  comments : AlikeList (AlikeComment π) a.comments b.comments
  inlineComment : AlikeOpt (AlikeComment π) a.inlineComment b.inlineComment
  inlineCommentBehindLeftCurly : AlikeOpt (AlikeComment π)
    a.inlineCommentBehindLeftCurly b.inlineCommentBehindLeftCurly
  info : AlikeMeta π a.info b.info

structure AlikeService (a b : Service) : Prop where
  serviceName : a.serviceName = b.serviceName
  comments : AlikeList (AlikeComment π) a.comments b.comments
  inlineComment : AlikeOpt (AlikeComment π) a.inlineComment b.inlineComment
  inlineCommentBehindLeftCurly : AlikeOpt (AlikeComment π)
    a.inlineCommentBehindLeftCurly b.inlineCommentBehindLeftCurly
  info : AlikeMeta π a.info b.info

/-- What is said of the elements of bodies that are comments: there are none, they are alike, or they are
alike or left out on one side. -/
inductive Coms where
  | none
  | both
  | either
  deriving DecidableEq

variable (skip : Coms)

mutual

/-- Alike elements of bodies. -/
inductive AlikeV : Visitee → Visitee → Prop
  | nil : AlikeV .nil .nil
  | comment {a b : Comment} : skip ≠ .none → AlikeComment π a b → AlikeV (.comment a) (.comment b)
  | importStmt {a b : Import} : AlikeImport π a b → AlikeV (.importStmt a) (.importStmt b)
  | package {a b : Package} : AlikePackage π a b → AlikeV (.package a) (.package b)
  | option {a b : OptionStmt} : AlikeOption π a b → AlikeV (.option a) (.option b)
  | emptyStatement {a b : EmptyStatement} : AlikeEmpty π a b → AlikeV (.emptyStatement a) (.emptyStatement b)
  | field {a b : Field} : AlikeField π a b → AlikeV (.field a) (.field b)
  | enumField {a b : EnumField} : AlikeEnumField π a b → AlikeV (.enumField a) (.enumField b)
  | oneof {a b : Oneof} : AlikeOneof π a b → AlikeV (.oneof a) (.oneof b)
  | mapField {a b : MapField} : AlikeMapField π a b → AlikeV (.mapField a) (.mapField b)
  | reserved {a b : Reserved} : AlikeReserved π a b → AlikeV (.reserved a) (.reserved b)
  | extensions {a b : Extensions} : AlikeExtensions π a b → AlikeV (.extensions a) (.extensions b)
  | rpc {a b : RPC} : AlikeRPC π a b → AlikeV (.rpc a) (.rpc b)
  | message {a b : Message} : AlikeMessage π a b → AlikeB a.messageBody b.messageBody →
      AlikeV (.message a) (.message b)
  | groupField {a b : GroupField} : AlikeGroupField π a b → AlikeB a.messageBody b.messageBody →
      AlikeV (.groupField a) (.groupField b)
  | enum {a b : Enum} : AlikeEnum π a b → AlikeB a.enumBody b.enumBody →
      AlikeV (.enum a) (.enum b)
  | extend {a b : Extend} : AlikeExtend π a b → AlikeB a.extendBody b.extendBody →
      AlikeV (.extend a) (.extend b)
  | service {a b : Service} : AlikeService π a b → AlikeB a.serviceBody b.serviceBody →
      AlikeV (.service a) (.service b)

/-- Alike bodies. -/
inductive AlikeB : List Visitee → List Visitee → Prop
  | nil : AlikeB [] []
  | cons {a b : Visitee} {as bs : List Visitee} : AlikeV a b → AlikeB as bs → AlikeB (a :: as) (b :: bs)
  | left {c : Comment} {as bs : List Visitee} : skip = .either → AlikeB as bs → AlikeB (.comment c :: as) bs
  | right {c : Comment} {as bs : List Visitee} : skip = .either → AlikeB as bs → AlikeB as (.comment c :: bs)

end

/-- Alike trees; the file name of each is that of a position. -/
structure AlikeProto (a b : Proto) : Prop where
  syntax_ : AlikeOpt (AlikeSyntax π) a.syntax_ b.syntax_
  edition : AlikeOpt (AlikeEdition π) a.edition b.edition
  protoBody : AlikeB π skip a.protoBody b.protoBody
  metaFilename : ∃ p q, π p q ∧ a.metaFilename = p.filename ∧ b.metaFilename = q.filename

/-- Alike errors. -/
inductive AlikeErr : Err → Err → Prop
  | rune {p q : Position} (e : String) (c : Char) : π p q →
      AlikeErr (.single p e (.rune c)) (.single q e (.rune c))
  | text {p q : Position} (e : String) (t : Str) : π p q →
      AlikeErr (.single p e (.text t)) (.single q e (.text t))
  | token {p q : Position} (e : String) (t : Str) (k : Token) : π p q →
      AlikeErr (.single p e (.token t k p)) (.single q e (.token t k q))
  | pair {a b a' b' : Err} : AlikeErr a b → AlikeErr a' b' → AlikeErr (.pair a a') (.pair b b')

end Verif.Spec
