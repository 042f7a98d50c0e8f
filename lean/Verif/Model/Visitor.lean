import Verif.Model.Ast

/-!
# Visiting

Models `parser/visitor.go` and every `Accept` method of the `parser` package.  A visitor is modelled
as a state machine: it receives a node, updates its own state and returns the Boolean that tells
whether to descend.
-/

namespace Verif

/-- The argument of one `Visit..` call, tagged with the method: visitor.go:4-26. -/
inductive Node where
  | comment (c : Comment)
  | declaration (d : Declaration)
  | edition (e : Edition)
  | emptyStatement (e : EmptyStatement)
  | enum (e : Enum)
  | enumField (f : EnumField)
  | extend (e : Extend)
  | extensions (e : Extensions)
  | field (f : Field)
  | groupField (g : GroupField)
  | importStmt (i : Import)
  | mapField (m : MapField)
  | message (m : Message)
  | oneof (o : Oneof)
  | oneofField (f : OneofField)
  | option (o : OptionStmt)
  | package (p : Package)
  | reserved (r : Reserved)
  | rpc (r : RPC)
  | service (s : Service)
  | syntaxStmt (s : Syntax)
  deriving Repr

/-- A `Visitor` with internal state `σ`.  The result of `VisitComment` is ignored by the code. -/
abbrev Visitor (σ : Type) := Node → σ → Bool × σ

/-- Code that calls a visitor. -/
abbrev V (σ : Type) := M σ Empty

namespace Visit

variable {σ : Type}

/-- `if !v.VisitX(x) { return }; rest`. -/
def node (v : Visitor σ) (n : Node) (rest : V σ Unit) : V σ Unit := fun s =>
  let (next, s') := v n s
  if next then rest s' else .ok () s'

/-- `Comment.Accept`: comment.go:42-44. -/
def comment (v : Visitor σ) (c : Comment) : V σ Unit := fun s => .ok () (v (.comment c) s).2

/-- `for _, comment := range comments { comment.Accept(v) }`. -/
def comments (v : Visitor σ) : List Comment → V σ Unit
  | [] => return ()
  | c :: cs => do comment v c; comments v cs

/-- `if c != nil { c.Accept(v) }`. -/
def comment? (v : Visitor σ) : Option Comment → V σ Unit
  | none => return ()
  | some c => comment v c

/-- `EmptyStatement.Accept`: emptyStatement.go:15-23. -/
def emptyStatement (v : Visitor σ) (e : EmptyStatement) : V σ Unit :=
  node v (.emptyStatement e) (comment? v e.inlineComment)

/-- `Syntax.Accept`: syntax.go:29-40. -/
def syntaxStmt (v : Visitor σ) (x : Syntax) : V σ Unit :=
  node v (.syntaxStmt x) do comments v x.comments; comment? v x.inlineComment

/-- `Edition.Accept`: edition.go:29-40. -/
def edition (v : Visitor σ) (x : Edition) : V σ Unit :=
  node v (.edition x) do comments v x.comments; comment? v x.inlineComment

/-- `Import.Accept`: import.go:37-48. -/
def importStmt (v : Visitor σ) (x : Import) : V σ Unit :=
  node v (.importStmt x) do comments v x.comments; comment? v x.inlineComment

/-- `Package.Accept`: package.go:26-37. -/
def package (v : Visitor σ) (x : Package) : V σ Unit :=
  node v (.package x) do comments v x.comments; comment? v x.inlineComment

/-- `Option.Accept`: option.go:29-40. -/
def option (v : Visitor σ) (x : OptionStmt) : V σ Unit :=
  node v (.option x) do comments v x.comments; comment? v x.inlineComment

/-- `Field.Accept`: field.go:38-49. -/
def field (v : Visitor σ) (x : Field) : V σ Unit :=
  node v (.field x) do comments v x.comments; comment? v x.inlineComment

/-- `MapField.Accept`: mapField.go:30-41. -/
def mapField (v : Visitor σ) (x : MapField) : V σ Unit :=
  node v (.mapField x) do comments v x.comments; comment? v x.inlineComment

/-- `EnumField.Accept`: enum.go:49-60. -/
def enumField (v : Visitor σ) (x : EnumField) : V σ Unit :=
  node v (.enumField x) do comments v x.comments; comment? v x.inlineComment

/-- `Reserved.Accept`: reserved.go:45-56. -/
def reserved (v : Visitor σ) (x : Reserved) : V σ Unit :=
  node v (.reserved x) do comments v x.comments; comment? v x.inlineComment

/-- `RPC.Accept`: service.go:51-62.  The options of the rpc are not visited. -/
def rpc (v : Visitor σ) (x : RPC) : V σ Unit :=
  node v (.rpc x) do comments v x.comments; comment? v x.inlineComment

/-- `OneofField.Accept`: oneof.go:29-40. -/
def oneofField (v : Visitor σ) (x : OneofField) : V σ Unit :=
  node v (.oneofField x) do comments v x.comments; comment? v x.inlineComment

/-- `for _, field := range o.OneofFields { field.Accept(v) }`. -/
def oneofFields (v : Visitor σ) : List OneofField → V σ Unit
  | [] => return ()
  | c :: cs => do oneofField v c; oneofFields v cs

/-- `for _, option := range o.Options { option.Accept(v) }`. -/
def options (v : Visitor σ) : List OptionStmt → V σ Unit
  | [] => return ()
  | c :: cs => do option v c; options v cs

/-- `Oneof.Accept`: oneof.go:65-82. -/
def oneof (v : Visitor σ) (x : Oneof) : V σ Unit :=
  node v (.oneof x) do
    oneofFields v x.oneofFields
    options v x.options
    comments v x.comments
    comment? v x.inlineComment

/-- `Declaration.Accept`: declaration.go:32-46. -/
def declaration (v : Visitor σ) (x : Declaration) : V σ Unit :=
  node v (.declaration x) do
    comments v x.comments
    comment? v x.inlineComment
    comment? v x.inlineCommentBehindLeftCurly

/-- `for _, declaration := range e.Declarations { declaration.Accept(v) }`. -/
def declarations (v : Visitor σ) : List Declaration → V σ Unit
  | [] => return ()
  | c :: cs => do declaration v c; declarations v cs

/-- `Extensions.Accept`: extensions.go:29-43. -/
def extensions (v : Visitor σ) (x : Extensions) : V σ Unit :=
  node v (.extensions x) do
    declarations v x.declarations
    comments v x.comments
    comment? v x.inlineComment

mutual
/-- `Accept` of a `Visitee`, dispatched on the dynamic type; on the nil interface value the call
panics.  `Message.Accept`: message.go:46-63; `Enum.Accept`: enum.go:85-102; `Service.Accept`:
service.go:86-103; `Extend.Accept`: extend.go:45-62; `GroupField.Accept`: groupField.go:39-56. -/
def accept (v : Visitor σ) : Visitee → V σ Unit
  | .nil => M.stop .panic
  | .comment c => comment v c
  | .importStmt x => importStmt v x
  | .package x => package v x
  | .option x => option v x
  | .message ⟨nm, body, cs, ic, icl, i⟩ =>
    node v (.message ⟨nm, body, cs, ic, icl, i⟩) do
      acceptAll v body; comments v cs; comment? v ic; comment? v icl
  | .enum ⟨nm, body, cs, ic, icl, i⟩ =>
    node v (.enum ⟨nm, body, cs, ic, icl, i⟩) do
      acceptAll v body; comments v cs; comment? v ic; comment? v icl
  | .service ⟨nm, body, cs, ic, icl, i⟩ =>
    node v (.service ⟨nm, body, cs, ic, icl, i⟩) do
      acceptAll v body; comments v cs; comment? v ic; comment? v icl
  | .extend ⟨nm, body, cs, ic, icl, i⟩ =>
    node v (.extend ⟨nm, body, cs, ic, icl, i⟩) do
      acceptAll v body; comments v cs; comment? v ic; comment? v icl
  | .emptyStatement x => emptyStatement v x
  | .field x => field v x
  | .enumField x => enumField v x
  | .oneof x => oneof v x
  | .mapField x => mapField v x
  | .groupField ⟨a, b, c, nm, body, num, cs, ic, icl, i⟩ =>
    node v (.groupField ⟨a, b, c, nm, body, num, cs, ic, icl, i⟩) do
      acceptAll v body; comments v cs; comment? v ic; comment? v icl
  | .reserved x => reserved v x
  | .extensions x => extensions v x
  | .rpc x => rpc v x

/-- `for _, body := range x.Body { body.Accept(v) }`. -/
def acceptAll (v : Visitor σ) : List Visitee → V σ Unit
  | [] => return ()
  | x :: xs => do accept v x; acceptAll v xs
end

/-- `if p.Syntax != nil { p.Syntax.Accept(v) }`: proto.go:22-24. -/
def syntax? (v : Visitor σ) : Option Syntax → V σ Unit
  | none => return ()
  | some s => syntaxStmt v s

/-- `if p.Edition != nil { p.Edition.Accept(v) }`: proto.go:25-27. -/
def edition? (v : Visitor σ) : Option Edition → V σ Unit
  | none => return ()
  | some e => edition v e

/-- `Proto.Accept`: proto.go:21-32. -/
def proto (v : Visitor σ) (p : Proto) : V σ Unit := do
  syntax? v p.syntax_
  edition? v p.edition
  acceptAll v p.protoBody

end Visit

end Verif
