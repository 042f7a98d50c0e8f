import Verif.Spec.Nodes

/-!
# What is required of the nodes of a tree for texts that may contain NUL runes

The code reads a NUL as the end of the text, but goes on behind it.  A string literal or a type can then be cut.
-/

namespace Verif.Spec

/-- A text between two equal quotes. -/
def Quoted (s : Str) : Prop := ∃ q w, (q = '"' ∨ q = '\'') ∧ s = q :: w ++ [q]

/-- A type, or the part of one before the place where another name has to follow. -/
def CutType (s : Str) : Prop := TypeRef s ∨ s = [] ∨ s = c!"." ∨ ∃ r, TypeRef r ∧ s = r ++ c!"."

/-- What is required of a declaration of an extensions statement. -/
def RawDecl (d : Declaration) : Prop :=
  (d.number = [] ∨ IntLit d.number) ∧ (d.fullName = [] ∨ Quoted d.fullName) ∧ (d.type = [] ∨ Quoted d.type)

/-- What is required of a node, whatever the runes of the text. -/
def RawNode : Visitee → Prop
  | .nil | .comment _ | .emptyStatement _ | .option _ => True
  | .importStmt x => Quoted x.location
  | .package x => Dotted x.name
  | .message x => Word x.messageName
  | .enum x => Word x.enumName
  | .service x => Word x.serviceName
  | .extend x => CutType x.messageType
  | .field x => Word x.fieldName ∧ IntLit x.fieldNumber ∧ CutType x.type ∧
      AtMostOne x.isRepeated x.isRequired x.isOptional
  | .enumField x => Word x.ident ∧ (IntLit x.number ∨ ∃ w, x.number = '-' :: w ∧ IntLit w)
  | .oneof x => Word x.oneofName ∧
      ∀ f ∈ x.oneofFields, Word f.fieldName ∧ IntLit f.fieldNumber ∧ CutType f.type
  | .mapField x => Word x.mapName ∧ IntLit x.fieldNumber ∧ CutType x.type ∧ x.keyType ∈ keyTypes
  | .groupField x => Word x.groupName ∧ IntLit x.fieldNumber ∧
      AtMostOne x.isRepeated x.isRequired x.isOptional ∧
      ∃ c w, x.groupName = c :: w ∧ c ∈ c!"ABCDEFGHIJKLMNOPQRSTUVWXYZ"
  | .reserved x => (∀ r ∈ x.ranges, ValidRange r) ∧ (∀ n ∈ x.fieldNames, Quoted n ∨ Word n) ∧
      ((x.ranges = [] ∧ x.fieldNames ≠ []) ∨ (x.ranges ≠ [] ∧ x.fieldNames = []))
  | .extensions x => (∀ r ∈ x.ranges, ValidRange r) ∧ x.ranges ≠ [] ∧ ∀ d ∈ x.declarations, RawDecl d
  | .rpc x => Word x.rpcName ∧ CutType x.rpcRequest.messageType ∧ CutType x.rpcResponse.messageType

end Verif.Spec
