/-!
# Basic vocabulary of the model

Go strings that the scanner produces are sequences of runes that were decoded from UTF-8, so a
string is modelled as the list of its Unicode scalar values.  A Go `rune` obtained from
`bufio.Reader.ReadRune` is always a Unicode scalar value (invalid bytes become U+FFFD), which is
exactly Lean's `Char`.  The byte level is modelled in `Verif/Model/Utf8.lean`.
-/

namespace Verif

/-- A Go string / rune slice, as its list of runes. -/
abbrev Str := List Char

open Lean in
/-- `c!"abc"` is the literal list `['a', 'b', 'c']`. -/
macro:max "c!" s:str : term => do
  let cs := s.getString.toList.map (fun c => Syntax.mkCharLit c)
  let cs : Array Term := (cs.map (fun (c : TSyntax `char) => (⟨c.raw⟩ : Term))).toArray
  `(([$cs,*] : List Char))

/-- How a run can stop without returning to its caller. `panic` is a Go run-time panic.  `fuel`
means that the bound on the number of loop iterations used to make the model total was exhausted;
the termination theorems show that this never happens. -/
inductive Halt where
  | panic
  | fuel
  deriving DecidableEq, Repr

/-- Result of running a piece of imperative Go code on a state of type `σ`: a normal return, an
error return (Go's `err != nil`; the state is *not* rolled back), or no return at all. -/
inductive Res (σ ε α : Type) where
  | ok (a : α) (s : σ)
  | err (e : ε) (s : σ)
  | halt (h : Halt)
  deriving Repr

/-- Imperative code over a mutable state `σ` with error returns of type `ε`. -/
def M (σ ε α : Type) : Type := σ → Res σ ε α

namespace M

/-- Return a value. -/
@[inline] def pure {σ ε α : Type} (a : α) : M σ ε α := fun s => .ok a s

/-- Sequencing; an error return is propagated (`if err != nil { return err }`). -/
@[inline] def bind {σ ε α β : Type} (m : M σ ε α) (f : α → M σ ε β) : M σ ε β := fun s =>
  match m s with
  | .ok a s' => f a s'
  | .err e s' => .err e s'
  | .halt h => .halt h

instance {σ ε : Type} : Monad (M σ ε) where
  pure := M.pure
  bind := M.bind

/-- Return an error. -/
@[inline] def throw {σ ε α : Type} (e : ε) : M σ ε α := fun s => .err e s

/-- Stop without returning. -/
@[inline] def stop {σ ε α : Type} (h : Halt) : M σ ε α := fun _ => .halt h

/-- Read the whole state. -/
@[inline] def get {σ ε : Type} : M σ ε σ := fun s => .ok s s

/-- Update the state. -/
@[inline] def modify {σ ε : Type} (f : σ → σ) : M σ ε Unit := fun s => .ok () (f s)

/-- `x, err := m()` where the caller inspects `err` itself. -/
@[inline] def attempt {σ ε α : Type} (m : M σ ε α) : M σ ε (Except ε α) := fun s =>
  match m s with
  | .ok a s' => .ok (.ok a) s'
  | .err e s' => .ok (.error e) s'
  | .halt h => .halt h

end M

end Verif
