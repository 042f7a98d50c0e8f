import Verif.Spec.Nodes

/-!
# Order and nesting of statements in the text
-/

namespace Verif.Spec

/-- The statements stand in the text one after the other: each ends no earlier than it starts, and
starts after the end of those before it. -/
def Ordered (is : List Meta) : Prop :=
  (∀ i ∈ is, i.pos.offset ≤ i.lastPos.offset) ∧
    is.Pairwise (fun i j => i.lastPos.offset < j.pos.offset)

/-- A statement lies between the first and the last token of another. -/
def Within (outer inner : Meta) : Prop :=
  outer.pos.offset < inner.pos.offset ∧ inner.lastPos.offset < outer.lastPos.offset

/-- The lists of parts of a statement that have positions of their own. -/
def parts : Visitee → List (List Meta)
  | .message x => [x.messageBody.filterMap metaOf]
  | .groupField x => [x.messageBody.filterMap metaOf]
  | .enum x => [x.enumBody.filterMap metaOf]
  | .extend x => [x.extendBody.filterMap metaOf]
  | .service x => [x.serviceBody.filterMap metaOf]
  | .oneof x => [x.oneofFields.map (·.info), x.options.map (·.info)]
  | .extensions x => [x.declarations.map (·.info)]
  | .rpc x => [x.rpcRequest.info :: x.rpcResponse.info :: x.options.map (·.info)]
  | _ => []

/-- The statements of a file, from the top. -/
def tops (p : Proto) : List Meta :=
  p.syntax_.toList.map (·.info) ++ p.edition.toList.map (·.info) ++ p.protoBody.filterMap metaOf

end Verif.Spec
