import Verif.Spec.Alike

/-!
# The tree of a strict run and the tree of a permissive run

`Relaxed a b`: `b` is the tree a permissive run makes of a text of which a strict run makes the tree `a`.  Two
things differ.  A string constant is written with exactly one quote at either end.  The semicolon behind the right
curly of a block is no statement of its own but belongs to the block: its position, behind the right curly, is the last position of the block, and the
comment behind it on its line is the comment behind the block.  (Of the comments inside the header of an rpc nothing
is said.)
-/

namespace Verif.Spec

/-- `b` is `a` with exactly one quote at either end. -/
def Requoted (a b : Str) : Prop :=
  ∃ (q : Char) (core : Str) (i j : Nat), (q = '"' ∨ q = '\'') ∧ 0 < i ∧ core.head? ≠ some q ∧ core.getLast? ≠ some q ∧
    a = List.replicate i q ++ core ++ List.replicate j q ∧ b = q :: core ++ [q]

/-- The same constant, or a string constant written anew. -/
def RelaxedConst (a b : Str) : Prop := a = b ∨ Requoted a b

def RelaxedOpts : List FieldOption → List FieldOption → Prop :=
  AlikeList fun a b => ∃ k, RelaxedConst a.constant k ∧ b = { a with constant := k }

def RelaxedOption (a b : OptionStmt) : Prop := ∃ k, RelaxedConst a.constant k ∧ b = { a with constant := k }

def RelaxedField (a b : Field) : Prop := ∃ os, RelaxedOpts a.fieldOptions os ∧ b = { a with fieldOptions := os }

def RelaxedMapField (a b : MapField) : Prop := ∃ os, RelaxedOpts a.fieldOptions os ∧ b = { a with fieldOptions := os }

def RelaxedOneofField (a b : OneofField) : Prop :=
  ∃ os, RelaxedOpts a.fieldOptions os ∧ b = { a with fieldOptions := os }

def RelaxedEnumField (a b : EnumField) : Prop :=
  ∃ os, RelaxedOpts a.enumValueOptions os ∧ b = { a with enumValueOptions := os }

def RelaxedOneof (a b : Oneof) : Prop :=
  ∃ fs os, AlikeList RelaxedOneofField a.oneofFields fs ∧ AlikeList RelaxedOption a.options os ∧
    b = { a with oneofFields := fs, options := os }

def RelaxedRPC (a b : RPC) : Prop :=
  ∃ os cs, AlikeList RelaxedOption a.options os ∧ b = { a with options := os, embeddedComments := cs }

/-- A block with another comment behind it and another last position; `none` for what has no block. -/
def endedBy (i : Option Comment) (p : Position) : Visitee → Option Visitee
  | .message x => some (.message { x with inlineComment := i, info.lastPos := p })
  | .groupField x => some (.groupField { x with inlineComment := i, info.lastPos := p })
  | .enum x => some (.enum { x with inlineComment := i, info.lastPos := p })
  | .extend x => some (.extend { x with inlineComment := i, info.lastPos := p })
  | .service x => some (.service { x with inlineComment := i, info.lastPos := p })
  | .oneof x => some (.oneof { x with inlineComment := i, info.lastPos := p })
  | .rpc x => some (.rpc { x with inlineComment := i, info.lastPos := p })
  | _ => none

/-- The offset of the last position of a block. -/
def blockEnd : Visitee → Int
  | .message x => x.info.lastPos.offset
  | .groupField x => x.info.lastPos.offset
  | .enum x => x.info.lastPos.offset
  | .extend x => x.info.lastPos.offset
  | .service x => x.info.lastPos.offset
  | .oneof x => x.info.lastPos.offset
  | .rpc x => x.info.lastPos.offset
  | _ => 0

mutual

inductive RelaxedV : Visitee → Visitee → Prop
  | nil : RelaxedV .nil .nil
  | comment (c : Comment) : RelaxedV (.comment c) (.comment c)
  | importStmt (x : Import) : RelaxedV (.importStmt x) (.importStmt x)
  | package (x : Package) : RelaxedV (.package x) (.package x)
  | emptyStatement (x : EmptyStatement) : RelaxedV (.emptyStatement x) (.emptyStatement x)
  | reserved (x : Reserved) : RelaxedV (.reserved x) (.reserved x)
  | extensions (x : Extensions) : RelaxedV (.extensions x) (.extensions x)
  | option {a b : OptionStmt} : RelaxedOption a b → RelaxedV (.option a) (.option b)
  | field {a b : Field} : RelaxedField a b → RelaxedV (.field a) (.field b)
  | mapField {a b : MapField} : RelaxedMapField a b → RelaxedV (.mapField a) (.mapField b)
  | enumField {a b : EnumField} : RelaxedEnumField a b → RelaxedV (.enumField a) (.enumField b)
  | oneof {a b : Oneof} : RelaxedOneof a b → RelaxedV (.oneof a) (.oneof b)
  | rpc {a b : RPC} : RelaxedRPC a b → RelaxedV (.rpc a) (.rpc b)
  | message {a : Message} {vs : List Visitee} : RelaxedB a.messageBody vs →
      RelaxedV (.message a) (.message { a with messageBody := vs })
  | groupField {a : GroupField} {vs : List Visitee} : RelaxedB a.messageBody vs →
      RelaxedV (.groupField a) (.groupField { a with messageBody := vs })
  | enum {a : Enum} {vs : List Visitee} : RelaxedB a.enumBody vs →
      RelaxedV (.enum a) (.enum { a with enumBody := vs })
  | extend {a : Extend} {vs : List Visitee} : RelaxedB a.extendBody vs →
      RelaxedV (.extend a) (.extend { a with extendBody := vs })
  | service {a : Service} {vs : List Visitee} : RelaxedB a.serviceBody vs →
      RelaxedV (.service a) (.service { a with serviceBody := vs })

inductive RelaxedB : List Visitee → List Visitee → Prop
  | nil : RelaxedB [] []
  | cons {a b : Visitee} {as bs : List Visitee} : RelaxedV a b → RelaxedB as bs → RelaxedB (a :: as) (b :: bs)
  /-- a block and a semicolon -/
  | semi {a b b' : Visitee} {i : Option Comment} {p : Position} {as bs : List Visitee} : RelaxedV a b →
      blockEnd b < p.offset → endedBy i p b = some b' → RelaxedB as bs →
      RelaxedB (a :: .emptyStatement { inlineComment := i } :: as) (b' :: bs)
  /-- a block and a semicolon at the top level, where a strict run adds a nil element behind the semicolon -/
  | semiNil {a b b' : Visitee} {p : Position} {as bs : List Visitee} : RelaxedV a b →
      blockEnd b < p.offset → endedBy none p b = some b' → RelaxedB as bs →
      RelaxedB (a :: .emptyStatement {} :: .nil :: as) (b' :: bs)

end

structure Relaxed (a b : Proto) : Prop where
  syntax_ : a.syntax_ = b.syntax_
  edition : a.edition = b.edition
  body : RelaxedB a.protoBody b.protoBody
  metaFilename : a.metaFilename = b.metaFilename

end Verif.Spec
