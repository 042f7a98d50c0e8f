import Verif.Model.Error

/-!
# The scanner

Models `lexer/scanner/scanner.go`, `comment.go`, `ident.go`, `strLit.go`, `numberLit.go`, `eof.go`.

Simplifications (all justified in `Verif/Model/Concrete.lean` / `Verif/Props/Buffer.lean`):
* the push-back buffer `lastReadBuffer` and the not yet read part of the `bufio.Reader` are one list
  `inp`, the text that the next reads will deliver;
* any read error of the underlying reader is the end of `inp` (scanner.go:71-74 maps both to `eof`).

Loops carry a bound on their number of iterations, initially one more than the length of the
remaining input; running out of it is reported as `Halt.fuel`.
-/

namespace Verif

/-- `scanner.Text`: scanner.go:12-15. -/
structure Text where
  literal : Str
  pos : SPos
  deriving DecidableEq, Repr

/-- `scanner.Scanner`: scanner.go:18-32. -/
structure Scanner where
  /-- what the next reads deliver: `lastReadBuffer` (top first) followed by the reader. -/
  inp : Str
  /-- `lastScanRaw`. -/
  raw : Str := []
  pos : SPos
  mode : Mode := {}
  comments : List Text := []
  deriving DecidableEq, Repr

/-- Code running on a scanner. -/
abbrev S := M Scanner Err

namespace Scanner

/-- `NewScanner`: scanner.go:45-54. -/
def new (inp filename : Str) : Scanner := { inp, pos := SPos.new filename }

/-- `(*Scanner).read`: scanner.go:56-76. -/
def read : S Char := fun s =>
  match s.inp with
  | [] => .ok eof s
  | c :: r =>
    if c = eof then .ok eof { s with inp := r }
    else .ok c { s with inp := r, raw := s.raw ++ [c], pos := s.pos.advance c }

/-- `(*Scanner).unread`: scanner.go:78-82. -/
def unread (ch : Char) (s : Scanner) : Scanner :=
  { s with inp := ch :: s.inp, pos := s.pos.revert ch }

/-- `(*Scanner).peek`: scanner.go:84-91. -/
def peek : S Char := do
  let ch ← read
  if ch ≠ eof then
    M.modify (fun s => unread ch { s with raw := s.raw.dropLast })
    return ch
  else
    return ch

/-- `(*Scanner).isEOF`: eof.go:3-6. -/
def isEOF : S Bool := do
  let ch ← peek
  return decide (ch = eof)

/-- `(*Scanner).UnScan`: scanner.go:94-103.  The result is the new position. -/
def unScan (s : Scanner) : Scanner := s.raw.reverse.foldl (fun s ch => unread ch s) s

/-- `(*Scanner).unexpected`: error.go:9-18. -/
def unexpected {α : Type} (found : Char) (expected : String) : S α := fun s =>
  .err (.single s.pos.p expected (.rune found)) s

/-- Iteration bound for a loop that consumes input: not part of the code. -/
def bound : S Nat := fun s => .ok (s.inp.length + 1) s

/-! ## Identifiers: ident.go -/

/-- The loop of `scanIdent`: ident.go:7-15. -/
def scanIdentLoop : Nat → Str → S Str
  | 0, _ => M.stop .fuel
  | n + 1, ident => do
    let next ← peek
    if isLetter next ∨ isDecimalDigit next ∨ next = '_' then
      let c ← read
      scanIdentLoop n (ident ++ [c])
    else
      return ident

/-- `scanIdent`: ident.go:4-16. -/
def scanIdent : S Str := do
  let c ← read
  let n ← bound
  scanIdentLoop n [c]

/-! ## Comments: comment.go -/

/-- The loop of a `//` comment: comment.go:10-17. -/
def lineCommentLoop : Nat → Char → Str → S Str
  | 0, _, _ => M.stop .fuel
  | n + 1, ch, lit => do
    if ch ≠ '\n' then
      let lit := lit ++ [ch]
      if ← isEOF then
        return lit
      else
        let ch ← read
        lineCommentLoop n ch lit
    else
      return lit

/-- The loop of a `/* */` comment: comment.go:19-32. -/
def blockCommentLoop : Nat → Char → Str → S Str
  | 0, _, _ => M.stop .fuel
  | n + 1, ch, lit => do
    if ← isEOF then
      unexpected eof "\n"
    else
      let lit := lit ++ [ch]
      let ch ← read
      let chn ← peek
      if ch = '*' ∧ chn = '/' then
        let c ← read
        return lit ++ [ch] ++ [c]
      else
        blockCommentLoop n ch lit

/-- `scanComment`: comment.go:4-38. -/
def scanComment : S Str := do
  let c ← read
  let ch ← read
  let n ← bound
  if ch = '/' then
    lineCommentLoop (n + 1) ch [c]
  else if ch = '*' then
    blockCommentLoop (n + 1) ch [c]
  else
    unexpected ch "/ or *"

/-! ## String literals: strLit.go -/

/-- The hex digits of an escape, `for i := 0; i < 2; i++`: strLit.go:58-63. -/
def hexDigitsLoop : Nat → Str → S Str
  | 0, lit => return lit
  | n + 1, lit => do
    let c ← peek
    if !isHexDigit c then
      return lit
    else
      let c ← read
      hexDigitsLoop n (lit ++ [c])

/-- The octal digits of an escape, `for i := 0; i < 3; i++`: strLit.go:65-70. -/
def octalDigitsLoop : Nat → Str → S Str
  | 0, lit => return lit
  | n + 1, lit => do
    let c ← peek
    if !isOctalDigit c then
      return lit
    else
      let c ← read
      octalDigitsLoop n (lit ++ [c])

/-- `isCharEscape`: strLit.go:43-51. -/
def isCharEscape (r : Char) : Bool := r ∈ ['a', 'b', 'f', 'n', 'r', 't', 'v', '\\', '\'', '"']

/-- `tryScanEscape`: strLit.go:40-76. -/
def tryScanEscape : S Str := do
  let c ← read
  let lit := [c]
  let ch ← peek
  if ch = 'x' ∨ ch = 'X' then
    let c ← read
    hexDigitsLoop 2 (lit ++ [c])
  else if isOctalDigit ch then
    octalDigitsLoop 3 lit
  else if isCharEscape ch then
    let c ← read
    return lit ++ [c]
  else
    return lit

/-- `scanCharValue`: strLit.go:24-35. -/
def scanCharValue : S Str := do
  let ch ← peek
  if ch = eof ∨ ch = '\n' then
    unexpected ch "/[^\\0\\n\\\\]"
  else if ch = '\\' then
    tryScanEscape
  else
    let c ← read
    return [c]

/-- The loop of `scanStrLit`: strLit.go:9-16; `ch` is the last peeked rune. -/
def strLitLoop (quote : Char) : Nat → Char → Str → S Str
  | 0, _, _ => M.stop .fuel
  | n + 1, ch, lit => do
    if ch ≠ quote then
      let cv ← scanCharValue
      let ch ← peek
      strLitLoop quote n ch (lit ++ cv)
    else
      return lit

/-- `scanStrLit`: strLit.go:4-21. -/
def scanStrLit : S Str := do
  let quote ← read
  let ch ← peek
  let n ← bound
  let lit ← strLitLoop quote n ch [quote]
  let c ← read
  return lit ++ [c]

/-! ## Number literals: numberLit.go -/

/-- `for !s.isEOF() { if !class(s.peek()) { break }; lit += string(s.read()) }`: the loops at
numberLit.go:22-27, 53-58, 62-67 and 165-170. -/
def digitsLoop (cls : Char → Bool) : Nat → Str → S Str
  | 0, _ => M.stop .fuel
  | n + 1, lit => do
    if ← isEOF then
      return lit
    else
      let c ← peek
      if !cls c then
        return lit
      else
        let c ← read
        digitsLoop cls n (lit ++ [c])

/-- `scanDecimals`: numberLit.go:158-172. -/
def scanDecimals : S Str := do
  let ch ← peek
  if !isDecimalDigit ch then
    unexpected ch "decimalDigit"
  else
    let c ← read
    let n ← bound
    digitsLoop isDecimalDigit n [c]

/-- `scanExponent`: numberLit.go:137-155. -/
def scanExponent : S Str := do
  let ch ← peek
  if ch = 'e' ∨ ch = 'E' then
    let c ← read
    let sgn ← peek
    if sgn = '+' ∨ sgn = '-' then
      let c' ← read
      let decimals ← scanDecimals
      return [c] ++ [c'] ++ decimals
    else
      let decimals ← scanDecimals
      return [c] ++ decimals
  else
    unexpected ch "e or E"

/-- `scanFractionPartNoOmit`: numberLit.go:118-134. -/
def scanFractionPartNoOmit : S Str := do
  let decimals ← scanDecimals
  let ch ← peek
  if ch = 'e' ∨ ch = 'E' then
    let exp ← scanExponent
    return decimals ++ exp
  else
    return decimals

/-- The second half of `scanFractionPart`: numberLit.go:106-114. -/
def scanFractionExp (lit : Str) : S Str := do
  let ch ← peek
  if ch = 'e' ∨ ch = 'E' then
    let exp ← scanExponent
    return lit ++ exp
  else
    return lit

/-- `scanFractionPart`: numberLit.go:93-115. -/
def scanFractionPart : S Str := do
  let ch ← peek
  if isDecimalDigit ch then
    let decimals ← scanDecimals
    scanFractionExp decimals
  else
    scanFractionExp []

/-- `scanNumberLit`: numberLit.go:9-90. -/
def scanNumberLit : S (Token × Str) := do
  let c ← read
  let lit := [c]
  let ch ← peek
  if lit = ['0'] ∧ (ch = 'x' ∨ ch = 'X') then
    let x ← read
    let h ← peek
    if !isHexDigit h then
      let h ← peek
      unexpected h "hexDigit"
    else
      let h ← read
      let n ← bound
      let lit ← digitsLoop isHexDigit n (lit ++ [x] ++ [h])
      return (.intLit, lit)
  else if lit = ['.'] then
    let fractional ← scanFractionPartNoOmit
    return (.floatLit, lit ++ fractional)
  else if ch = '.' then
    let d ← read
    let fractional ← scanFractionPart
    return (.floatLit, lit ++ [d] ++ fractional)
  else if ch = 'e' ∨ ch = 'E' then
    let exp ← scanExponent
    return (.floatLit, lit ++ exp)
  else if lit = ['0'] then
    let n ← bound
    let lit ← digitsLoop isOctalDigit n lit
    return (.intLit, lit)
  else
    let n ← bound
    let lit ← digitsLoop isDecimalDigit n lit
    let ch ← peek
    if ch = '.' then
      let d ← read
      let fractional ← scanFractionPart
      return (.floatLit, lit ++ [d] ++ fractional)
    else if ch = 'e' ∨ ch = 'E' then
      let exp ← scanExponent
      return (.floatLit, lit ++ exp)
    else
      return (.intLit, lit)

/-! ## Scan: scanner.go -/

/-- The value returned by `Scan`: token, text, position and error. -/
structure Scanned where
  token : Token
  text : Str
  pos : SPos
  error : Option Err := none
  deriving DecidableEq, Repr

/-- `(*Scanner).scan`: scanner.go:143-191.  The recursive calls after white space and after a
skipped comment decrease the bound. -/
def scanLoop : Nat → S Scanned
  | 0 => M.stop .fuel
  | n + 1 => do
    let ch ← peek
    let s ← M.get
    let startPos := s.pos
    let mode := s.mode
    if isSpace ch then
      let _ ← read
      scanLoop n
    else if ← isEOF then
      return { token := .eof, text := [], pos := startPos }
    else if isLetter ch ∨ ch = '_' then
      let ident ← scanIdent
      if mode.bool ∧ isBoolLit ident then
        return { token := .boolLit, text := ident, pos := startPos }
      else if mode.number ∧ isFloatLitKeyword ident then
        return { token := .floatLit, text := ident, pos := startPos }
      else if mode.keyword ∧ asKeywordToken ident ≠ .illegal then
        return { token := asKeywordToken ident, text := ident, pos := startPos }
      else
        return { token := .ident, text := ident, pos := startPos }
    else if ch = '/' then
      match ← M.attempt scanComment with
      | .error e => return { token := .illegal, text := [], pos := startPos, error := some e }
      | .ok lit =>
        M.modify (fun s => { s with comments := s.comments ++ [{ literal := lit, pos := startPos }] })
        if mode.comment then
          return { token := .comment, text := lit, pos := startPos }
        else
          scanLoop n
    else if isQuote ch ∧ mode.str then
      match ← M.attempt scanStrLit with
      | .error e => return { token := .illegal, text := [], pos := startPos, error := some e }
      | .ok lit => return { token := .strLit, text := lit, pos := startPos }
    else if (isDecimalDigit ch ∨ ch = '.') ∧ mode.number then
      match ← M.attempt scanNumberLit with
      | .error e => return { token := .illegal, text := [], pos := startPos, error := some e }
      | .ok (tok, lit) => return { token := tok, text := lit, pos := startPos }
    else
      let c ← read
      return { token := asMiscToken ch, text := [c], pos := startPos }

/-- `(*Scanner).Scan`: scanner.go:106-109. -/
def scan : S Scanned := do
  M.modify (fun s => { s with raw := [] })
  let n ← bound
  scanLoop n

/-- `find` of `GetScannedComments`: scanner.go:126-133. -/
def findComment (uniqueComments : List Text) (c : Text) : Bool :=
  uniqueComments.any (fun uc => c.pos.p.offset = uc.pos.p.offset ∧ c.literal = uc.literal)

/-- `(*Scanner).GetScannedComments`: scanner.go:124-141. -/
def getScannedComments (s : Scanner) : List Text :=
  s.comments.foldl (fun uniqueComments c =>
    if !findComment uniqueComments c then uniqueComments ++ [c] else uniqueComments) []

end Scanner

end Verif
