import Verif.Model.Visitor

/-!
# Specification of visiting

The syntax tree as a plain rose tree of nodes, its pre-order, and what a visitor that can refuse to
descend should see.
-/

namespace Verif.Spec

/-- A rose tree of nodes. -/
inductive Tree where
  | mk (n : Node) (children : List Tree)

namespace Tree

mutual
/-- The nodes of a tree, parents first. -/
def preorder : Tree → List Node
  | mk n ts => n :: preorderAll ts
/-- The nodes of a forest, parents first. -/
def preorderAll : List Tree → List Node
  | [] => []
  | t :: ts => preorder t ++ preorderAll ts
end

mutual
/-- The tree without the descendants of the nodes that `p` refuses. -/
def prune (p : Node → Bool) : Tree → Tree
  | mk n ts => mk n (if p n then pruneAll p ts else [])
/-- The forest without the descendants of the nodes that `p` refuses. -/
def pruneAll (p : Node → Bool) : List Tree → List Tree
  | [] => []
  | t :: ts => prune p t :: pruneAll p ts
end

mutual
/-- A walk that asks at each node, in the current state, whether to descend. -/
def walk {σ : Type} (v : Visitor σ) : Tree → σ → σ
  | mk n ts, s => if (v n s).1 then walkAll v ts (v n s).2 else (v n s).2
/-- The same over a forest. -/
def walkAll {σ : Type} (v : Visitor σ) : List Tree → σ → σ
  | [], s => s
  | t :: ts, s => walkAll v ts (walk v t s)
end

end Tree

open Tree

/-- A node without children. -/
def leaf (n : Node) : Tree := .mk n []

/-- The comments attached to an element: those before it, the one behind it, and the one behind its
opening brace. -/
def attached (cs : List Comment) (ic icl : Option Comment) : List Tree :=
  (cs ++ ic.toList ++ icl.toList).map (fun c => leaf (.comment c))

/-- An option statement. -/
def optionTree (x : OptionStmt) : Tree := .mk (.option x) (attached x.comments x.inlineComment none)

/-- A field of a oneof. -/
def oneofFieldTree (x : OneofField) : Tree :=
  .mk (.oneofField x) (attached x.comments x.inlineComment none)

/-- A declaration of an extension range. -/
def declarationTree (x : Declaration) : Tree :=
  .mk (.declaration x) (attached x.comments x.inlineComment x.inlineCommentBehindLeftCurly)

mutual
/-- The tree of an element; `none` if it contains a nil interface value.  The comment behind the
opening brace of a oneof and the options of an rpc are not part of the tree: the code does not visit
them. -/
def tree : Visitee → Option Tree
  | .nil => none
  | .comment c => some (leaf (.comment c))
  | .importStmt x => some (.mk (.importStmt x) (attached x.comments x.inlineComment none))
  | .package x => some (.mk (.package x) (attached x.comments x.inlineComment none))
  | .option x => some (optionTree x)
  | .message ⟨nm, body, cs, ic, icl, i⟩ =>
    (forest body).map (fun ts => .mk (.message ⟨nm, body, cs, ic, icl, i⟩) (ts ++ attached cs ic icl))
  | .enum ⟨nm, body, cs, ic, icl, i⟩ =>
    (forest body).map (fun ts => .mk (.enum ⟨nm, body, cs, ic, icl, i⟩) (ts ++ attached cs ic icl))
  | .service ⟨nm, body, cs, ic, icl, i⟩ =>
    (forest body).map (fun ts => .mk (.service ⟨nm, body, cs, ic, icl, i⟩) (ts ++ attached cs ic icl))
  | .extend ⟨nm, body, cs, ic, icl, i⟩ =>
    (forest body).map (fun ts => .mk (.extend ⟨nm, body, cs, ic, icl, i⟩) (ts ++ attached cs ic icl))
  | .emptyStatement x => some (.mk (.emptyStatement x) (attached [] x.inlineComment none))
  | .field x => some (.mk (.field x) (attached x.comments x.inlineComment none))
  | .enumField x => some (.mk (.enumField x) (attached x.comments x.inlineComment none))
  | .oneof x => some (.mk (.oneof x) (x.oneofFields.map oneofFieldTree ++ x.options.map optionTree ++
      attached x.comments x.inlineComment none))
  | .mapField x => some (.mk (.mapField x) (attached x.comments x.inlineComment none))
  | .groupField ⟨a, b, c, nm, body, num, cs, ic, icl, i⟩ =>
    (forest body).map (fun ts =>
      .mk (.groupField ⟨a, b, c, nm, body, num, cs, ic, icl, i⟩) (ts ++ attached cs ic icl))
  | .reserved x => some (.mk (.reserved x) (attached x.comments x.inlineComment none))
  | .extensions x => some (.mk (.extensions x)
      (x.declarations.map declarationTree ++ attached x.comments x.inlineComment none))
  | .rpc x => some (.mk (.rpc x) (attached x.comments x.inlineComment none))

/-- The trees of a body. -/
def forest : List Visitee → Option (List Tree)
  | [] => some []
  | x :: xs =>
    match tree x, forest xs with
    | some t, some ts => some (t :: ts)
    | _, _ => none
end

/-- The trees of a file: the syntax, the edition and the body. -/
def protoForest (p : Proto) : Option (List Tree) :=
  (forest p.protoBody).map (fun ts =>
    (p.syntax_.map (fun x => Tree.mk (.syntaxStmt x) (attached x.comments x.inlineComment none))).toList ++
    (p.edition.map (fun x => Tree.mk (.edition x) (attached x.comments x.inlineComment none))).toList ++ ts)

mutual
/-- The elements below and including an element, in source order, without attached comments.  A nil
value has none. -/
def elements : Visitee → List Node
  | .nil => []
  | .comment _ => []
  | .importStmt x => [.importStmt x]
  | .package x => [.package x]
  | .option x => [.option x]
  | .message ⟨nm, body, cs, ic, icl, i⟩ => .message ⟨nm, body, cs, ic, icl, i⟩ :: elementsAll body
  | .enum ⟨nm, body, cs, ic, icl, i⟩ => .enum ⟨nm, body, cs, ic, icl, i⟩ :: elementsAll body
  | .service ⟨nm, body, cs, ic, icl, i⟩ => .service ⟨nm, body, cs, ic, icl, i⟩ :: elementsAll body
  | .extend ⟨nm, body, cs, ic, icl, i⟩ => .extend ⟨nm, body, cs, ic, icl, i⟩ :: elementsAll body
  | .emptyStatement x => [.emptyStatement x]
  | .field x => [.field x]
  | .enumField x => [.enumField x]
  | .oneof x => .oneof x :: (x.oneofFields.map .oneofField ++ x.options.map .option)
  | .mapField x => [.mapField x]
  | .groupField ⟨a, b, c, nm, body, num, cs, ic, icl, i⟩ =>
    .groupField ⟨a, b, c, nm, body, num, cs, ic, icl, i⟩ :: elementsAll body
  | .reserved x => [.reserved x]
  | .extensions x => .extensions x :: x.declarations.map .declaration
  | .rpc x => [.rpc x]
/-- The elements of a body. -/
def elementsAll : List Visitee → List Node
  | [] => []
  | x :: xs => elements x ++ elementsAll xs
end

/-- A node that is not a comment. -/
def isElement : Node → Bool
  | .comment _ => false
  | _ => true

mutual
/-- A nil interface value occurs in an element. -/
def hasNil : Visitee → Bool
  | .nil => true
  | .message ⟨_, body, _, _, _, _⟩ => anyNil body
  | .enum ⟨_, body, _, _, _, _⟩ => anyNil body
  | .service ⟨_, body, _, _, _, _⟩ => anyNil body
  | .extend ⟨_, body, _, _, _, _⟩ => anyNil body
  | .groupField ⟨_, _, _, _, body, _, _, _, _, _⟩ => anyNil body
  | _ => false
/-- A nil interface value occurs in a body. -/
def anyNil : List Visitee → Bool
  | [] => false
  | x :: xs => hasNil x || anyNil xs
end

end Verif.Spec
