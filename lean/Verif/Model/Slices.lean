import Verif.Model.Concrete

/-!
# The slices of the scanner

`Model/Concrete.lean` keeps `lastScanRaw` as a list.  In Go it is a slice: a length and a reference to an array,
which other slices may share.  `read` appends to it in place if the array is large enough, `Scan` and `peek` shorten
it without letting go of the array, `LastScanRaw` copies it, and `SetLastScanRaw` makes it share the array of the
caller.  Here is the scanner with this memory.
-/

namespace Verif

/-- A `[]rune`: an array and how much of it is used.  All slices here begin at the start of their array. -/
structure Slice where
  addr : Nat
  len : Nat
  deriving DecidableEq, Repr

/-- All arrays that were ever made; the length of one is its capacity. -/
abbrev Heap := List Str

/-- The array of a slice. -/
def Heap.array (h : Heap) (a : Nat) : Str := h.getD a []

/-- The elements of a slice. -/
def Heap.content (h : Heap) (s : Slice) : Str := (h.array s.addr).take s.len

/-- `append(s, r)`: in place if there is room, else in a new array, with some room to spare. -/
def Heap.append (grow : Nat → Nat) (h : Heap) (s : Slice) (r : Char) : Heap × Slice :=
  if s.len < (h.array s.addr).length then (h.set s.addr ((h.array s.addr).set s.len r), { s with len := s.len + 1 })
  else (h ++ [h.content s ++ r :: List.replicate (grow s.len) (Char.ofNat 0)], { addr := h.length, len := s.len + 1 })

/-- `make([]rune, len(s))` and `copy`. -/
def Heap.copy (h : Heap) (s : Slice) : Heap × Slice := (h ++ [h.content s], { addr := h.length, len := s.len })

/-- `scanner.Scanner` with the slice `lastScanRaw`: scanner.go:18-32.  The list `raw` of `base` is not used. -/
structure Sliced (ρ : Type) where
  base : Concrete ρ
  heap : Heap
  raw : Slice

namespace Sliced

variable {ρ : Type}

/-- `NewScanner`: scanner.go:38-54; a nil slice has an array without elements. -/
def new (reader : ρ) (left : Nat) (filename : Str) : Sliced ρ :=
  { base := Concrete.new reader left filename, heap := [[]], raw := { addr := 0, len := 0 } }

/-- `read`: scanner.go:56-76. -/
def read (grow : Nat → Nat) (rd : RuneReader ρ) (x : Sliced ρ) : Char × Sliced ρ :=
  let (ch, c) := Concrete.pop rd x.base
  if ch = eof then (ch, { x with base := c })
  else
    let a := Concrete.advance c.p c.columns ch
    let m := x.heap.append grow x.raw ch
    (ch, { base := { c with p := a.1, columns := a.2 }, heap := m.1, raw := m.2 })

/-- `unread`: scanner.go:78-82. -/
def unread (ch : Char) (x : Sliced ρ) : Sliced ρ := { x with base := Concrete.unread ch x.base }

/-- `peek`: scanner.go:84-91. -/
def peek (grow : Nat → Nat) (rd : RuneReader ρ) (x : Sliced ρ) : Char × Sliced ρ :=
  let (ch, x) := read grow rd x
  if ch ≠ eof then (ch, unread ch { x with raw := { x.raw with len := x.raw.len - 1 } }) else (ch, x)

/-- `UnScan`: scanner.go:94-103. -/
def unScan (x : Sliced ρ) : Sliced ρ := (x.heap.content x.raw).reverse.foldl (fun x ch => unread ch x) x

/-- The run of a program; see `Concrete.run`. -/
def run (grow : Nat → Nat) (rd : RuneReader ρ) {α : Type} : Prog α → Position → Sliced ρ → Res (Sliced ρ) Err (α × Position)
  | .ret a, r, x => .ok (a, r) x
  | .throw e, _, x => .err e x
  | .stop h, _, _ => .halt h
  | .read k, r, x => match read grow rd x with | (ch, x') => run grow rd (k ch) r x'
  | .peek k, r, x => match peek grow rd x with | (ch, x') => run grow rd (k ch) r x'
  | .bound k, r, x => run grow rd (k (x.base.buf.length + x.base.left + 1)) r x
  | .mode k, r, x => run grow rd (k x.base.mode) r x
  | .mkErr ch e k, r, x => run grow rd (k (.single x.base.p e (.rune ch))) r x
  | .mark k, _, x => run grow rd k x.base.p x
  | .record lit k, r, x => run grow rd k r { x with base := { x.base with comments := x.base.comments ++ [(lit, r)] } }

/-- `Scan`: scanner.go:106-109. -/
def scan (grow : Nat → Nat) (rd : RuneReader ρ) (x : Sliced ρ) : Res (Sliced ρ) Err (Prog.Out × Position) :=
  run grow rd Prog.scan x.base.p { x with raw := { x.raw with len := 0 } }

/-- `LastScanRaw`: scanner.go:112-116. -/
def lastScanRaw (x : Sliced ρ) : Slice × Sliced ρ :=
  let m := x.heap.copy x.raw
  (m.2, { x with heap := m.1 })

/-- `SetLastScanRaw`: scanner.go:119-121. -/
def setLastScanRaw (s : Slice) (x : Sliced ρ) : Sliced ρ := { x with raw := s }

end Sliced

end Verif
