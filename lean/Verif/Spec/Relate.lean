import Verif.Spec.Alike
import Verif.Model.Api

/-!
# Two calls of `Parse` compared
-/

namespace Verif.Spec

mutual
/-- An element with the comments that are elements of its bodies, at any depth, left out. -/
def dropComments : Visitee → Visitee
  | .message ⟨nm, body, a, b, c, d⟩ => .message ⟨nm, dropAll body, a, b, c, d⟩
  | .enum ⟨nm, body, a, b, c, d⟩ => .enum ⟨nm, dropAll body, a, b, c, d⟩
  | .service ⟨nm, body, a, b, c, d⟩ => .service ⟨nm, dropAll body, a, b, c, d⟩
  | .extend ⟨nm, body, a, b, c, d⟩ => .extend ⟨nm, dropAll body, a, b, c, d⟩
  | .groupField ⟨x, y, z, nm, body, num, a, b, c, d⟩ => .groupField ⟨x, y, z, nm, dropAll body, num, a, b, c, d⟩
  | v => v

/-- A body with the comments that are elements of it, at any depth, left out. -/
def dropAll : List Visitee → List Visitee
  | [] => []
  | v :: vs =>
    match v with
    | .comment _ => dropAll vs
    | v => dropComments v :: dropAll vs
end

/-- A file with the comments that are elements of bodies left out. -/
def dropProto (p : Proto) : Proto := { p with protoBody := dropAll p.protoBody }

/-- Two outcomes of the same kind. -/
inductive OutcomeRel {α : Type} (R : α → α → Prop) (E : Err → Err → Prop) : Outcome α → Outcome α → Prop
  | ok {a b : α} : R a b → OutcomeRel R E (.ok a) (.ok b)
  | error {e f : Err} : E e f → OutcomeRel R E (.error e) (.error f)
  | panic : OutcomeRel R E .panic .panic

/-- `q` is `p` with another file name; that of `p` is `f`, that of `q` is `g`. -/
def Renamed (f g : Str) (p q : Position) : Prop := p.filename = f ∧ q = { p with filename := g }

/-- `q` is `p` in a text with a byte order mark put in front: three bytes and, on the first line, at most
one column further. -/
structure AfterMark (p q : Position) : Prop where
  filename : q.filename = p.filename
  offset : q.offset = p.offset + 3
  line : q.line = p.line
  column : q.column = p.column ∨ q.column = p.column + 1 ∧ p.line ≤ 1

end Verif.Spec
