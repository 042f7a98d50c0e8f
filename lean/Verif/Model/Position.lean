import Verif.Model.Rune

/-!
# Positions

Models `parser/meta/position.go`, `parser/meta/meta.go` and `lexer/scanner/position.go`.

Simplification.  In Go a `scanner.Position` carries a map from line number to the column reached at
the end of that line; the map is used only when a newline is reverted.  Here the map is modelled as
the stack of the end columns of the lines before the current one: advancing over a newline pushes,
reverting a newline pops, and reverting past the bottom yields 0 (a missing map key).
`Verif/Model/Concrete.lean` models the map itself and `Verif/Props/Buffer.lean` proves that the two
are observationally equal for every sequence of operations.
-/

namespace Verif

/-- `meta.Position`: parser/meta/position.go:8-17.  Go `int`s are modelled as integers. -/
structure Position where
  filename : Str := []
  offset : Int := 0
  line : Int := 0
  column : Int := 0
  deriving DecidableEq, Repr

/-- `meta.Meta`: parser/meta/meta.go:4-11. -/
structure Meta where
  pos : Position := {}
  lastPos : Position := {}
  deriving DecidableEq, Repr

/-- `scanner.Position`: lexer/scanner/position.go:10-15 (see the note at the top). -/
structure SPos where
  p : Position := {}
  /-- end columns of the lines before the current one, most recent first. -/
  cols : List Int := []
  deriving DecidableEq, Repr

namespace SPos

/-- `NewPosition` with the `WithFilename` option applied: position.go:18-27, scanner.go:38-42. -/
def new (filename : Str) : SPos := { p := { filename, offset := 0, line := 1, column := 1 } }

/-- `(*Position).Advance`: position.go:35-47.  `utf8.RuneLen` is `Char.utf8Size`. -/
def advance (s : SPos) (r : Char) : SPos :=
  if r = '\n' then
    { p := { s.p with offset := s.p.offset + r.utf8Size, line := s.p.line + 1, column := 1 },
      cols := s.p.column :: s.cols }
  else
    { s with p := { s.p with offset := s.p.offset + r.utf8Size, column := s.p.column + 1 } }

/-- `(*Position).Revert`: position.go:60-70. -/
def revert (s : SPos) (r : Char) : SPos :=
  if r = '\n' then
    { p := { s.p with offset := s.p.offset - r.utf8Size, line := s.p.line - 1,
                      column := s.cols.headD 0 },
      cols := s.cols.tail }
  else
    { s with p := { s.p with offset := s.p.offset - r.utf8Size, column := s.p.column - 1 } }

/-- Advance over a whole text, left to right: the loop of `AdvancedBulk`, position.go:51-53. -/
def advanceAll (s : SPos) (t : Str) : SPos := t.foldl advance s

/-- `Position.AdvancedBulk`: position.go:50-57.  `utf8.DecodeLastRuneInString("")` is U+FFFD. -/
def advancedBulk (s : SPos) (t : Str) : SPos :=
  (s.advanceAll t).revert (t.getLastD (Char.ofNat 0xFFFD))

end SPos

end Verif
