import Verif.Spec.Grammar

/-!
# Which nodes may stand in which body

Independent of the input: the kinds of nodes that a program that walks over the tree has to expect.
-/

namespace Verif.Spec

mutual
/-- A statement of a body of the given kind, with what its own body may hold.  `b` says that comments
may be elements. -/
inductive Elem (b : Bool) : Ctx → Visitee → Prop
  | importStmt (x : Import) : Elem b .file (.importStmt x)
  | package (x : Package) : Elem b .file (.package x)
  | service (x : Service) : Elems b .service x.serviceBody → Elem b .file (.service x)
  | option (k : Ctx) (x : OptionStmt) : k ≠ .extend → Elem b k (.option x)
  | message (k : Ctx) (x : Message) : k = .file ∨ k = .message → Elems b .message x.messageBody →
      Elem b k (.message x)
  | enum (k : Ctx) (x : Enum) : k = .file ∨ k = .message → Elems b .enum x.enumBody → Elem b k (.enum x)
  | extend (k : Ctx) (x : Extend) : k = .file ∨ k = .message → Elems b .extend x.extendBody →
      Elem b k (.extend x)
  | group (x : GroupField) : Elems b .message x.messageBody → Elem b .message (.groupField x)
  | field (k : Ctx) (x : Field) : k = .message ∨ k = .extend → Elem b k (.field x)
  | oneof (x : Oneof) : Elem b .message (.oneof x)
  | mapField (x : MapField) : Elem b .message (.mapField x)
  | extensions (x : Extensions) : Elem b .message (.extensions x)
  | reserved (k : Ctx) (x : Reserved) : k = .message ∨ k = .enum → Elem b k (.reserved x)
  | enumField (x : EnumField) : Elem b .enum (.enumField x)
  | rpc (x : RPC) : Elem b .service (.rpc x)
  | empty (k : Ctx) (x : EmptyStatement) : k ≠ .file → Elem b k (.emptyStatement x)

/-- A body: statements, and behind them comments if these may be elements.  At the top level a nil
value follows each empty statement, which has no comment; there is no nil value elsewhere. -/
inductive Elems (b : Bool) : Ctx → List Visitee → Prop
  | done (k : Ctx) (cs : List Verif.Comment) : (b = false → cs = []) → Elems b k (cs.map .comment)
  | stmt (k : Ctx) (v : Visitee) (vs : List Visitee) : Elem b k v → Elems b k vs → Elems b k (v :: vs)
  | semi (vs : List Visitee) : Elems b .file vs → Elems b .file (.emptyStatement {} :: .nil :: vs)
end

/-- An empty statement is an element of the body. -/
def Empties (vs : List Visitee) : Prop := ∃ e, Visitee.emptyStatement e ∈ vs

end Verif.Spec
