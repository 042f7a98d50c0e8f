import Verif.Model.Ast

/-!
# The unordered interpreter

Models `interpret/unordered/*.go` and `UnorderedInterpret` (protoparser.go:73-75).  The bodies
hold no nil pointers (a nil *interface* value is `Visitee.nil`), so the functions below take the node; the
nil pointer that the exported `Interpret..` functions also accept is added by `ofPtr`.  The text of the
errors is kept as the names it is built from.
-/

namespace Verif.Unordered

open Verif

/-- The errors: `invalid .. type` (proto.go:90, enum.go:72, extend.go:64, message.go:108,
service.go:64) and the wrapping with the name of the element (message.go:48, enum.go:41,
service.go:39). -/
inductive UErr where
  | invalid (kind : String) (v : Visitee)
  | wrap (kind : String) (name : Str) (e : UErr)
  deriving Repr

abbrev R (α : Type) := Except UErr α

/-- enum.go:11-16. -/
structure EnumBody where
  options : List OptionStmt := []
  enumFields : List EnumField := []
  reserveds : List Reserved := []
  emptyStatements : List EmptyStatement := []
  deriving DecidableEq, Repr

/-- enum.go:19-31. -/
structure UEnum where
  enumName : Str
  enumBody : EnumBody
  comments : List Comment
  inlineComment : Option Comment
  inlineCommentBehindLeftCurly : Option Comment
  info : Meta
  deriving DecidableEq, Repr

/-- extend.go:11-14. -/
structure ExtendBody where
  fields : List Field := []
  emptyStatements : List EmptyStatement := []
  deriving DecidableEq, Repr

/-- extend.go:17-29. -/
structure UExtend where
  messageType : Str
  extendBody : ExtendBody
  comments : List Comment
  inlineComment : Option Comment
  inlineCommentBehindLeftCurly : Option Comment
  info : Meta
  deriving DecidableEq, Repr

/-- service.go:11-14. -/
structure ServiceBody where
  options : List OptionStmt := []
  rpcs : List RPC := []
  deriving DecidableEq, Repr

/-- service.go:17-29. -/
structure UService where
  serviceName : Str
  serviceBody : ServiceBody
  comments : List Comment
  inlineComment : Option Comment
  inlineCommentBehindLeftCurly : Option Comment
  info : Meta
  deriving DecidableEq, Repr

/-- message.go:11-23; `U` is the unordered message. -/
structure MessageBodyOf (U : Type) where
  fields : List Field := []
  enums : List UEnum := []
  messages : List U := []
  options : List OptionStmt := []
  oneofs : List Oneof := []
  maps : List MapField := []
  groups : List GroupField := []
  reserves : List Reserved := []
  extends_ : List Extend := []
  emptyStatements : List EmptyStatement := []
  extensions : List Extensions := []
  deriving Repr

/-- message.go:26-38. -/
inductive UMessage where
  | mk (messageName : Str) (messageBody : MessageBodyOf UMessage) (comments : List Comment)
      (inlineComment inlineCommentBehindLeftCurly : Option Comment) (info : Meta)
  deriving Repr

abbrev MessageBody := MessageBodyOf UMessage

/-- proto.go:10-19. -/
structure ProtoBody where
  imports : List Import := []
  packages : List Package := []
  options : List OptionStmt := []
  messages : List UMessage := []
  extends_ : List UExtend := []
  enums : List UEnum := []
  services : List UService := []
  emptyStatements : List EmptyStatement := []
  deriving Repr

/-- proto.go:22-25.  There is no edition. -/
structure UProto where
  syntax_ : Option Syntax
  protoBody : ProtoBody
  deriving Repr

/-- The loop of `interpretEnumBody`: enum.go:61-74. -/
def enumBodyLoop : List Visitee → EnumBody → R EnumBody
  | [], b => return b
  | s :: src, b =>
    match s with
    | .option t => enumBodyLoop src { b with options := b.options ++ [t] }
    | .enumField t => enumBodyLoop src { b with enumFields := b.enumFields ++ [t] }
    | .reserved t => enumBodyLoop src { b with reserveds := b.reserveds ++ [t] }
    | .emptyStatement t => enumBodyLoop src { b with emptyStatements := b.emptyStatements ++ [t] }
    | t => .error (.invalid "EnumBody" t)

/-- `InterpretEnum` with `interpretEnumBody`: enum.go:34-81. -/
def interpretEnum (src : Enum) : R UEnum :=
  match enumBodyLoop src.enumBody {} with
  | .error e => .error (.wrap "Enum" src.enumName e)
  | .ok enumBody => .ok
    { enumName := src.enumName, enumBody, comments := src.comments,
      inlineComment := src.inlineComment,
      inlineCommentBehindLeftCurly := src.inlineCommentBehindLeftCurly, info := src.info }

/-- The loop of `interpretExtendBody`: extend.go:57-66. -/
def extendBodyLoop : List Visitee → ExtendBody → R ExtendBody
  | [], b => return b
  | s :: src, b =>
    match s with
    | .field t => extendBodyLoop src { b with fields := b.fields ++ [t] }
    | .emptyStatement t =>
      extendBodyLoop src { b with emptyStatements := b.emptyStatements ++ [t] }
    | t => .error (.invalid "ExtendBody" t)

/-- `InterpretExtend` with `interpretExtendBody`: extend.go:32-71. -/
def interpretExtend (src : Extend) : R UExtend :=
  match extendBodyLoop src.extendBody {} with
  | .error e => .error e
  | .ok extendBody => .ok
    { messageType := src.messageType, extendBody, comments := src.comments,
      inlineComment := src.inlineComment,
      inlineCommentBehindLeftCurly := src.inlineCommentBehindLeftCurly, info := src.info }

/-- The loop of `interpretServiceBody`: service.go:57-66. -/
def serviceBodyLoop : List Visitee → ServiceBody → R ServiceBody
  | [], b => return b
  | s :: src, b =>
    match s with
    | .option t => serviceBodyLoop src { b with options := b.options ++ [t] }
    | .rpc t => serviceBodyLoop src { b with rpcs := b.rpcs ++ [t] }
    | t => .error (.invalid "ServiceBody" t)

/-- `InterpretService` with `interpretServiceBody`: service.go:32-71. -/
def interpretService (src : Service) : R UService :=
  match serviceBodyLoop src.serviceBody {} with
  | .error e => .error (.wrap "Service" src.serviceName e)
  | .ok serviceBody => .ok
    { serviceName := src.serviceName, serviceBody, comments := src.comments,
      inlineComment := src.inlineComment,
      inlineCommentBehindLeftCurly := src.inlineCommentBehindLeftCurly, info := src.info }

/-- The loop of `interpretMessageBody`: message.go:75-110.  The nested call of `InterpretMessage`
(message.go:41-58, 85-90) is the inner `match`. -/
def messageBodyLoop : List Visitee → MessageBody → R MessageBody
  | [], b => return b
  | .field t :: src, b => messageBodyLoop src { b with fields := b.fields ++ [t] }
  | .enum t :: src, b =>
    match interpretEnum t with
    | .error e => .error e
    | .ok u => messageBodyLoop src { b with enums := b.enums ++ [u] }
  | .message ⟨nm, body, cs, ic, icl, i⟩ :: src, b =>
    match messageBodyLoop body {} with
    | .error e => .error (.wrap "Message" nm e)
    | .ok mb => messageBodyLoop src { b with messages := b.messages ++ [.mk nm mb cs ic icl i] }
  | .option t :: src, b => messageBodyLoop src { b with options := b.options ++ [t] }
  | .oneof t :: src, b => messageBodyLoop src { b with oneofs := b.oneofs ++ [t] }
  | .mapField t :: src, b => messageBodyLoop src { b with maps := b.maps ++ [t] }
  | .groupField t :: src, b => messageBodyLoop src { b with groups := b.groups ++ [t] }
  | .reserved t :: src, b => messageBodyLoop src { b with reserves := b.reserves ++ [t] }
  | .extend t :: src, b => messageBodyLoop src { b with extends_ := b.extends_ ++ [t] }
  | .emptyStatement t :: src, b =>
    messageBodyLoop src { b with emptyStatements := b.emptyStatements ++ [t] }
  | .extensions t :: src, b => messageBodyLoop src { b with extensions := b.extensions ++ [t] }
  | t :: _, _ => .error (.invalid "MessageBody" t)

/-- `InterpretMessage` with `interpretMessageBody`: message.go:41-124. -/
def interpretMessage (src : Message) : R UMessage :=
  match messageBodyLoop src.messageBody {} with
  | .error e => .error (.wrap "Message" src.messageName e)
  | .ok mb => .ok (.mk src.messageName mb src.comments src.inlineComment
      src.inlineCommentBehindLeftCurly src.info)

/-- The loop of `interpretProtoBody`: proto.go:55-92. -/
def protoBodyLoop : List Visitee → ProtoBody → R ProtoBody
  | [], b => return b
  | s :: src, b =>
    match s with
    | .importStmt t => protoBodyLoop src { b with imports := b.imports ++ [t] }
    | .package t => protoBodyLoop src { b with packages := b.packages ++ [t] }
    | .option t => protoBodyLoop src { b with options := b.options ++ [t] }
    | .message t =>
      match interpretMessage t with
      | .error e => .error e
      | .ok u => protoBodyLoop src { b with messages := b.messages ++ [u] }
    | .extend t =>
      match interpretExtend t with
      | .error e => .error e
      | .ok u => protoBodyLoop src { b with extends_ := b.extends_ ++ [u] }
    | .enum t =>
      match interpretEnum t with
      | .error e => .error e
      | .ok u => protoBodyLoop src { b with enums := b.enums ++ [u] }
    | .service t =>
      match interpretService t with
      | .error e => .error e
      | .ok u => protoBodyLoop src { b with services := b.services ++ [u] }
    | .emptyStatement t => protoBodyLoop src { b with emptyStatements := b.emptyStatements ++ [t] }
    | t => .error (.invalid "ProtoBody" t)

/-- `InterpretProto`: proto.go:28-41; `UnorderedInterpret`: protoparser.go:73-75. -/
def interpretProto (src : Proto) : R UProto :=
  match protoBodyLoop src.protoBody {} with
  | .error e => .error e
  | .ok b => .ok { syntax_ := src.syntax_, protoBody := b }

/-- An `Interpret..` function on a pointer; nil is interpreted as nil: enum.go:35-37, extend.go:33-35,
message.go:42-44, proto.go:29-31, service.go:33-35. -/
def ofPtr {α β : Type} (f : α → R β) : Option α → R (Option β)
  | none => .ok none
  | some x => match f x with
    | .error e => .error e
    | .ok y => .ok (some y)

end Verif.Unordered
