import Verif.Spec.Grammar
import Verif.Model.Error

/-!
# The nodes of a tree and what is required of each
-/

namespace Verif.Spec

/-- `In v vs`: the node `v` occurs in the body `vs`, at any depth. -/
inductive In (v : Visitee) : List Visitee → Prop
  | here (vs : List Visitee) : In v (v :: vs)
  | there (u : Visitee) (vs : List Visitee) : In v vs → In v (u :: vs)
  | message (x : Message) (vs : List Visitee) : In v x.messageBody → In v (.message x :: vs)
  | group (x : GroupField) (vs : List Visitee) : In v x.messageBody → In v (.groupField x :: vs)
  | enum (x : Enum) (vs : List Visitee) : In v x.enumBody → In v (.enum x :: vs)
  | extend (x : Extend) (vs : List Visitee) : In v x.extendBody → In v (.extend x :: vs)
  | service (x : Service) (vs : List Visitee) : In v x.serviceBody → In v (.service x :: vs)

/-- The `Meta` of a node that has one and is a statement. -/
def metaOf : Visitee → Option Meta
  | .nil | .comment _ | .emptyStatement _ => none
  | .importStmt x => some x.info
  | .package x => some x.info
  | .option x => some x.info
  | .message x => some x.info
  | .enum x => some x.info
  | .service x => some x.info
  | .extend x => some x.info
  | .field x => some x.info
  | .enumField x => some x.info
  | .oneof x => some x.info
  | .mapField x => some x.info
  | .groupField x => some x.info
  | .reserved x => some x.info
  | .extensions x => some x.info
  | .rpc x => some x.info

/-- A number of a range. -/
def ValidRange (r : Range) : Prop := IntLit r.begin_ ∧ (r.end_ = [] ∨ IntLit r.end_ ∨ r.end_ = c!"max")

/-- A dotted name. -/
def Dotted (s : Str) : Prop := ∃ ws, FullIdent s ws
/-- A dotted name, possibly with a leading dot. -/
def TypeRef (s : Str) : Prop := ∃ ws, MessageType s ws

/-- The names and numbers of a node are lexically valid. -/
def ValidNode : Visitee → Prop
  | .nil | .comment _ | .emptyStatement _ | .option _ => True
  | .importStmt x => StrLit x.location
  | .package x => Dotted x.name
  | .message x => Word x.messageName
  | .enum x => Word x.enumName
  | .service x => Word x.serviceName
  | .extend x => TypeRef x.messageType
  | .field x => Word x.fieldName ∧ IntLit x.fieldNumber ∧ TypeRef x.type
  | .enumField x => Word x.ident ∧ (IntLit x.number ∨ ∃ w, x.number = '-' :: w ∧ IntLit w)
  | .oneof x => Word x.oneofName ∧
      ∀ f ∈ x.oneofFields, Word f.fieldName ∧ IntLit f.fieldNumber ∧ TypeRef f.type
  | .mapField x => Word x.mapName ∧ IntLit x.fieldNumber ∧ TypeRef x.type
  | .groupField x => Word x.groupName ∧ IntLit x.fieldNumber
  | .reserved x => (∀ r ∈ x.ranges, ValidRange r) ∧ ∀ n ∈ x.fieldNames, StrLit n ∨ Word n
  | .extensions x => ∀ r ∈ x.ranges, ValidRange r
  | .rpc x => Word x.rpcName ∧ TypeRef x.rpcRequest.messageType ∧ TypeRef x.rpcResponse.messageType

/-- At most one of three flags. -/
def AtMostOne (a b c : Bool) : Prop := (a = false ∨ b = false) ∧ (a = false ∨ c = false) ∧ (b = false ∨ c = false)

/-- The positions in an error. -/
def positions : Err → List Position
  | .single p _ _ => [p]
  | .pair a b => positions a ++ positions b

/-- The position of the first error. -/
def leadPos : Err → Position
  | .single p _ _ => p
  | .pair a _ => leadPos a

/-- `p` is the position of a rune of the text, or of its end. -/
def PosIn (file input : Str) (p : Position) : Prop := ∃ pre rest, input = pre ++ rest ∧ p = posAt file pre

end Verif.Spec
