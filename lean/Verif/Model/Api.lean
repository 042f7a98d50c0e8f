import Verif.Model.Parser

/-!
# The entry point

Models `protoparser.go` (`Parse` and its options) and the methods of `Comment`.
-/

namespace Verif

/-- `ParseConfig`: protoparser.go:12-17. -/
structure ParseConfig where
  debug : Bool := false
  permissive : Bool := false
  bodyIncludingComments : Bool := false
  filename : Str := []
  deriving DecidableEq, Repr

/-- `protoparser.Option`, a function on the configuration: protoparser.go:20. -/
abbrev ParseOpt := ParseConfig → ParseConfig

/-- protoparser.go:23-27. -/
def withDebug (b : Bool) : ParseOpt := fun c => { c with debug := b }
/-- protoparser.go:30-34. -/
def withPermissive (b : Bool) : ParseOpt := fun c => { c with permissive := b }
/-- protoparser.go:38-42. -/
def withBodyIncludingComments (b : Bool) : ParseOpt :=
  fun c => { c with bodyIncludingComments := b }
/-- protoparser.go:45-49. -/
def withFilename (f : Str) : ParseOpt := fun c => { c with filename := f }

/-- The configuration that `Parse` builds from its options: protoparser.go:53-58. -/
def configOf (options : List ParseOpt) : ParseConfig :=
  options.foldl (fun c opt => opt c) { permissive := true }

/-- What a call of `Parse` does within the given number of loop iterations: returns a tree, returns an
error, panics, or needs more. -/
inductive Outcome (α : Type) where
  | ok (a : α)
  | error (e : Err)
  | panic
  | more
  deriving Repr

/-- The outcome of a run. -/
def Outcome.ofRes {σ α : Type} : Res σ Err α → Outcome α
  | .ok a _ => .ok a
  | .err e _ => .error e
  | .halt .panic => .panic
  | .halt .fuel => .more

/-- The run of `ParseProto` on an input text: protoparser.go:60-69. -/
def runProto (fuel : Nat) (config : ParseConfig) (input : Str) : Res Lexer Err Proto :=
  Parser.parseProto
    { permissive := config.permissive, bodyIncludingComments := config.bodyIncludingComments, fuel }
    (Lexer.new input config.filename)

/-- `Parse`: protoparser.go:52-70, on the runes that the reader delivers, within `fuel` nesting levels
and `fuel` statements per body. -/
def parse (fuel : Nat) (input : Str) (options : List ParseOpt := []) : Outcome Proto :=
  .ofRes (runProto fuel (configOf options) input)

/-- What a call of `Parse` that returns has passed to the `Error` callback of its lexer, which writes to the
standard error of the process: lexer.go:60-62, 88-91. -/
def logged (fuel : Nat) (input : Str) (options : List ParseOpt := []) : List Err :=
  match runProto fuel (configOf options) input with
  | .ok _ l => l.log
  | .err _ l => l.log
  | .halt _ => []

/-- `Parse` returns or panics with this outcome: it does so within some bound. -/
def Parses (input : Str) (options : List ParseOpt) (o : Outcome Proto) : Prop :=
  o ≠ .more ∧ ∃ fuel, parse fuel input options = o

/-! ## Comment: comment.go -/

/-- `strings.HasPrefix`. -/
def hasPrefix (s p : Str) : Bool := p.isPrefixOf s

/-- `strings.TrimPrefix`. -/
def trimPrefix (s p : Str) : Str := if hasPrefix s p then s.drop p.length else s

/-- `strings.TrimSuffix`. -/
def trimSuffix (s p : Str) : Str :=
  if p.isSuffixOf s then s.take (s.length - p.length) else s

/-- `strings.Split(s, "\n")`. -/
def splitLines : Str → List Str
  | [] => [[]]
  | c :: cs =>
    if c = '\n' then [] :: splitLines cs
    else
      match splitLines cs with
      | [] => [[c]]
      | l :: ls => (c :: l) :: ls

/-- `IsCStyle`: comment.go:25-27. -/
def Comment.isCStyle (c : Comment) : Bool := hasPrefix c.raw c!"/*"

/-- `Lines`: comment.go:30-39. -/
def Comment.lines (c : Comment) : List Str :=
  if c.isCStyle then
    splitLines (trimSuffix (trimPrefix c.raw c!"/*") c!"*/")
  else
    splitLines (trimPrefix c.raw c!"//")

end Verif
