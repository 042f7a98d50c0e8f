import Verif.Model.Basic

/-!
# Rune classes

Models `lexer/scanner/lettersdigits.go`, `lexer/scanner/quote.go`, `lexer/scanner/boolLit.go`,
`lexer/scanner/floatLit.go` and the standard library predicate `unicode.IsSpace`.
-/

namespace Verif

/-- `var eof = rune(0)`: scanner.go:9.  A NUL in the input is indistinguishable from the end. -/
def eof : Char := Char.ofNat 0

/-- `isLetter`: lettersdigits.go:8-22. -/
def isLetter (r : Char) : Bool :=
  if r < 'A' then false
  else if 'z' < r then false
  else if 'Z' < r ∧ r < 'a' then false
  else true

/-- `isDecimalDigit`: lettersdigits.go:25-27. -/
def isDecimalDigit (r : Char) : Bool := '0' ≤ r ∧ r ≤ '9'

/-- `isOctalDigit`: lettersdigits.go:30-32. -/
def isOctalDigit (r : Char) : Bool := '0' ≤ r ∧ r ≤ '7'

/-- `isHexDigit`: lettersdigits.go:35-46. -/
def isHexDigit (r : Char) : Bool :=
  if '0' ≤ r ∧ r ≤ '9' then true
  else if 'A' ≤ r ∧ r ≤ 'F' then true
  else if 'a' ≤ r ∧ r ≤ 'f' then true
  else false

/-- `isQuote`: quote.go:5-12. -/
def isQuote (ch : Char) : Bool := ch = '\'' ∨ ch = '"'

/-- `isBoolLit`: boolLit.go:4-11. -/
def isBoolLit (ident : Str) : Bool := ident = c!"true" ∨ ident = c!"false"

/-- `isFloatLitKeyword`: floatLit.go:4-11. -/
def isFloatLitKeyword (ident : Str) : Bool := ident = c!"inf" ∨ ident = c!"nan"

/-- `unicode.IsSpace` of the Go standard library (used at scanner.go:149): the Latin-1 cases of
`unicode/graphic.go` and, above U+00FF, the ranges of the `White_Space` table. -/
def isSpace (r : Char) : Bool :=
  let n := r.toNat
  n = 0x09 ∨ n = 0x0A ∨ n = 0x0B ∨ n = 0x0C ∨ n = 0x0D ∨ n = 0x20 ∨ n = 0x85 ∨ n = 0xA0 ∨
  n = 0x1680 ∨ (0x2000 ≤ n ∧ n ≤ 0x200A) ∨ n = 0x2028 ∨ n = 0x2029 ∨ n = 0x202F ∨ n = 0x205F ∨
  n = 0x3000

/-- `isUpper`: parser/groupField.go:181-183. -/
def isUpper (r : Char) : Bool := 'A' ≤ r ∧ r ≤ 'Z'

/-- `isCapitalized`: parser/groupField.go:173-179. -/
def isCapitalized (s : Str) : Bool :=
  match s with
  | [] => false
  | r :: _ => isUpper r

end Verif
