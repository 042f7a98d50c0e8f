import Verif.Spec.Nodes

/-!
# The size of a tree
-/

namespace Verif.Spec

mutual
/-- The number of statements in an element, itself included, at any depth.  Comments and nil elements
are no statements. -/
def size : Visitee → Nat
  | .nil | .comment _ => 0
  | .message ⟨_, body, _, _, _, _⟩ => 1 + sizes body
  | .enum ⟨_, body, _, _, _, _⟩ => 1 + sizes body
  | .service ⟨_, body, _, _, _, _⟩ => 1 + sizes body
  | .extend ⟨_, body, _, _, _, _⟩ => 1 + sizes body
  | .groupField ⟨_, _, _, _, body, _, _, _, _, _⟩ => 1 + sizes body
  | .oneof x => 1 + x.oneofFields.length + x.options.length
  | .extensions x => 1 + x.declarations.length
  | .rpc x => 1 + x.options.length
  | .importStmt _ | .package _ | .option _ | .emptyStatement _ | .field _ | .enumField _ | .mapField _
  | .reserved _ => 1
/-- The number of statements in a body, at any depth. -/
def sizes : List Visitee → Nat
  | [] => 0
  | v :: vs => size v + sizes vs
end

/-- The number of statements in a file. -/
def fileSize (p : Proto) : Nat := p.syntax_.toList.length + p.edition.toList.length + sizes p.protoBody

/-- A semicolon or a right curly: what a statement ends with. -/
def isEnd (c : Char) : Bool := c = ';' || c = '}'

end Verif.Spec
