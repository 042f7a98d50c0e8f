import Verif.Model.Unordered

/-!
# Specification of the unordered interpretation

Each list of the result is the sub-sequence of the body elements of its kind.
-/

namespace Verif.Spec
open Verif.Unordered

def asField : Visitee → Option Field | .field x => some x | _ => none
def asEnum : Visitee → Option Enum | .enum x => some x | _ => none
def asMessage : Visitee → Option Message | .message x => some x | _ => none
def asOption : Visitee → Option OptionStmt | .option x => some x | _ => none
def asOneof : Visitee → Option Oneof | .oneof x => some x | _ => none
def asMap : Visitee → Option MapField | .mapField x => some x | _ => none
def asGroup : Visitee → Option GroupField | .groupField x => some x | _ => none
def asReserved : Visitee → Option Reserved | .reserved x => some x | _ => none
def asExtend : Visitee → Option Extend | .extend x => some x | _ => none
def asEmpty : Visitee → Option EmptyStatement | .emptyStatement x => some x | _ => none
def asExtensions : Visitee → Option Extensions | .extensions x => some x | _ => none
def asEnumField : Visitee → Option EnumField | .enumField x => some x | _ => none
def asRpc : Visitee → Option RPC | .rpc x => some x | _ => none
def asImport : Visitee → Option Import | .importStmt x => some x | _ => none
def asPackage : Visitee → Option Package | .package x => some x | _ => none
def asService : Visitee → Option Service | .service x => some x | _ => none

/-- An enum with its body sorted by kind. -/
def unEnum (x : Enum) : UEnum where
  enumName := x.enumName
  enumBody :=
    { options := x.enumBody.filterMap asOption, enumFields := x.enumBody.filterMap asEnumField
      reserveds := x.enumBody.filterMap asReserved, emptyStatements := x.enumBody.filterMap asEmpty }
  comments := x.comments
  inlineComment := x.inlineComment
  inlineCommentBehindLeftCurly := x.inlineCommentBehindLeftCurly
  info := x.info

/-- An extend with its body sorted by kind. -/
def unExtend (x : Extend) : UExtend where
  messageType := x.messageType
  extendBody :=
    { fields := x.extendBody.filterMap asField, emptyStatements := x.extendBody.filterMap asEmpty }
  comments := x.comments
  inlineComment := x.inlineComment
  inlineCommentBehindLeftCurly := x.inlineCommentBehindLeftCurly
  info := x.info

/-- A service with its body sorted by kind. -/
def unService (x : Service) : UService where
  serviceName := x.serviceName
  serviceBody :=
    { options := x.serviceBody.filterMap asOption, rpcs := x.serviceBody.filterMap asRpc }
  comments := x.comments
  inlineComment := x.inlineComment
  inlineCommentBehindLeftCurly := x.inlineCommentBehindLeftCurly
  info := x.info

/-- A message body sorted by kind, given its nested messages. -/
def unBody (body : List Visitee) (nested : List UMessage) : MessageBody where
  fields := body.filterMap asField
  enums := (body.filterMap asEnum).map unEnum
  messages := nested
  options := body.filterMap asOption
  oneofs := body.filterMap asOneof
  maps := body.filterMap asMap
  groups := body.filterMap asGroup
  reserves := body.filterMap asReserved
  extends_ := body.filterMap asExtend
  emptyStatements := body.filterMap asEmpty
  extensions := body.filterMap asExtensions

/-- The messages of a body, in order, with their bodies sorted by kind at every level. -/
def unMessages : List Visitee → List UMessage
  | [] => []
  | .message ⟨nm, body, cs, ic, icl, i⟩ :: xs =>
    .mk nm (unBody body (unMessages body)) cs ic icl i :: unMessages xs
  | _ :: xs => unMessages xs

/-- A file with its body sorted by kind. -/
def unProto (p : Proto) : UProto where
  syntax_ := p.syntax_
  protoBody :=
    { imports := p.protoBody.filterMap asImport
      packages := p.protoBody.filterMap asPackage
      options := p.protoBody.filterMap asOption
      messages := unMessages p.protoBody
      extends_ := (p.protoBody.filterMap asExtend).map unExtend
      enums := (p.protoBody.filterMap asEnum).map unEnum
      services := (p.protoBody.filterMap asService).map unService
      emptyStatements := p.protoBody.filterMap asEmpty }

/-! ## The elements that are allowed -/

def enumOk : Visitee → Bool
  | .option _ | .enumField _ | .reserved _ | .emptyStatement _ => true
  | _ => false

def extendOk : Visitee → Bool
  | .field _ | .emptyStatement _ => true
  | _ => false

def serviceOk : Visitee → Bool
  | .option _ | .rpc _ => true
  | _ => false

/-- The elements of a message body that are allowed, at every level. -/
def messageOk : List Visitee → Bool
  | [] => true
  | .message ⟨_, body, _, _, _, _⟩ :: xs => messageOk body && messageOk xs
  | .enum x :: xs => x.enumBody.all enumOk && messageOk xs
  | .field _ :: xs | .option _ :: xs | .oneof _ :: xs | .mapField _ :: xs | .groupField _ :: xs
  | .reserved _ :: xs | .extend _ :: xs | .emptyStatement _ :: xs | .extensions _ :: xs => messageOk xs
  | _ :: _ => false

def protoOk : Visitee → Bool
  | .importStmt _ | .package _ | .option _ | .emptyStatement _ => true
  | .message x => messageOk x.messageBody
  | .extend x => x.extendBody.all extendOk
  | .enum x => x.enumBody.all enumOk
  | .service x => x.serviceBody.all serviceOk
  | _ => false

/-! ## The element that an error blames

An error blames the first element that is not allowed, with the names of the messages, enums and services around it. -/

/-- The first element of a body that `ok` does not allow. -/
inductive First (ok : Visitee → Bool) (kind : String) : List Visitee → UErr → Prop
  | here (v : Visitee) (xs : List Visitee) : ok v = false → First ok kind (v :: xs) (.invalid kind v)
  | skip (v : Visitee) (xs : List Visitee) (e : UErr) : ok v = true → First ok kind xs e → First ok kind (v :: xs) e

/-- The kinds of elements that a message may hold, whatever these hold. -/
def messageHolds : Visitee → Bool
  | .field _ | .enum _ | .message _ | .option _ | .oneof _ | .mapField _ | .groupField _ | .reserved _ | .extend _
  | .emptyStatement _ | .extensions _ => true
  | _ => false

/-- The kinds of elements that a file may hold, whatever these hold. -/
def protoHolds : Visitee → Bool
  | .importStmt _ | .package _ | .option _ | .emptyStatement _ | .message _ | .extend _ | .enum _ | .service _ => true
  | _ => false

/-- The first element of a message body that is not allowed, at every level. -/
inductive BadMessage : List Visitee → UErr → Prop
  | here (v : Visitee) (xs : List Visitee) : messageHolds v = false → BadMessage (v :: xs) (.invalid "MessageBody" v)
  | enum (x : Enum) (xs : List Visitee) (e : UErr) : First enumOk "EnumBody" x.enumBody e →
      BadMessage (.enum x :: xs) (.wrap "Enum" x.enumName e)
  | message (x : Message) (xs : List Visitee) (e : UErr) : BadMessage x.messageBody e →
      BadMessage (.message x :: xs) (.wrap "Message" x.messageName e)
  | skip (v : Visitee) (xs : List Visitee) (e : UErr) : messageOk [v] = true → BadMessage xs e → BadMessage (v :: xs) e

/-- The first element of a file that is not allowed, at every level. -/
inductive BadProto : List Visitee → UErr → Prop
  | here (v : Visitee) (xs : List Visitee) : protoHolds v = false → BadProto (v :: xs) (.invalid "ProtoBody" v)
  | message (x : Message) (xs : List Visitee) (e : UErr) : BadMessage x.messageBody e →
      BadProto (.message x :: xs) (.wrap "Message" x.messageName e)
  | extend (x : Extend) (xs : List Visitee) (e : UErr) : First extendOk "ExtendBody" x.extendBody e →
      BadProto (.extend x :: xs) e
  | enum (x : Enum) (xs : List Visitee) (e : UErr) : First enumOk "EnumBody" x.enumBody e →
      BadProto (.enum x :: xs) (.wrap "Enum" x.enumName e)
  | service (x : Service) (xs : List Visitee) (e : UErr) : First serviceOk "ServiceBody" x.serviceBody e →
      BadProto (.service x :: xs) (.wrap "Service" x.serviceName e)
  | skip (v : Visitee) (xs : List Visitee) (e : UErr) : protoOk v = true → BadProto xs e → BadProto (v :: xs) e

end Verif.Spec
