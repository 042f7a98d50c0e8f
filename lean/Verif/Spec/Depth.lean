import Verif.Model.Ast

/-!
# How deep a tree is
-/

namespace Verif.Spec

mutual

/-- How deep bodies are nested: 0 for a statement without a body of statements of its own. -/
def levels : Visitee → Nat
  | .message ⟨_, body, _, _, _, _⟩ => allLevels body + 1
  | .enum ⟨_, body, _, _, _, _⟩ => allLevels body + 1
  | .service ⟨_, body, _, _, _, _⟩ => allLevels body + 1
  | .extend ⟨_, body, _, _, _, _⟩ => allLevels body + 1
  | .groupField ⟨_, _, _, _, body, _, _, _, _, _⟩ => allLevels body + 1
  | _ => 0

/-- The levels of the deepest statement. -/
def allLevels : List Visitee → Nat
  | [] => 0
  | v :: vs => max (levels v) (allLevels vs)

end

/-- How deep messages are nested in messages; groups do not count. -/
def messageLevels : List Visitee → Nat
  | [] => 0
  | .message ⟨_, body, _, _, _, _⟩ :: vs => max (messageLevels body + 1) (messageLevels vs)
  | _ :: vs => messageLevels vs

end Verif.Spec
