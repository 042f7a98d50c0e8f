import Verif.Model.Lexer

/-!
# The concrete state of the scanner

`Model/Scanner.lean` keeps one list of runes that will be delivered and positions with a stack of line
ends.  Here is the state that the Go code has: a buffered reader, a push-back buffer, and one map from
lines to columns that is shared by all copies of the position (lexer/scanner/position.go:10-15: copying a
`Position` copies the reference to its map).

The scanning code is written once more, as a program over the primitive operations (`Prog`), which can
be run on both kinds of states; `Props/Buffer.lean` proves that `Scanner.scan` is the run on the abstract state and
that the run on the concrete state shows the same.
-/

namespace Verif

/-- A program over the primitive operations of a scanner. -/
inductive Prog (α : Type) : Type
  /-- return a value -/
  | ret (a : α)
  /-- return an error -/
  | throw (e : Err)
  /-- do not return -/
  | stop (h : Halt)
  /-- `s.read()` -/
  | read (k : Char → Prog α)
  /-- `s.peek()` -/
  | peek (k : Char → Prog α)
  /-- iteration bound of a loop, not part of the code: one more than the number of runes left -/
  | bound (k : Nat → Prog α)
  /-- `s.Mode` -/
  | mode (k : Mode → Prog α)
  /-- the error made by `s.unexpected(found, expected)` -/
  | mkErr (found : Char) (expected : String) (k : Err → Prog α)
  /-- `startPos := *s.pos` -/
  | mark (k : Prog α)
  /-- `s.comments = append(s.comments, Text{lit, startPos})` -/
  | record (lit : Str) (k : Prog α)

namespace Prog

/-- Sequencing. -/
def bind {α β : Type} : Prog α → (α → Prog β) → Prog β
  | ret a, f => f a
  | throw e, _ => throw e
  | stop h, _ => stop h
  | read k, f => read fun c => (k c).bind f
  | peek k, f => peek fun c => (k c).bind f
  | bound k, f => bound fun n => (k n).bind f
  | mode k, f => mode fun m => (k m).bind f
  | mkErr c s k, f => mkErr c s fun e => (k e).bind f
  | mark k, f => mark (k.bind f)
  | record lit k, f => record lit (k.bind f)

instance : Monad Prog where
  pure := ret
  bind := bind

/-- The caller inspects the error itself. -/
def attempt {α : Type} : Prog α → Prog (Except Err α)
  | ret a => ret (.ok a)
  | throw e => ret (.error e)
  | stop h => stop h
  | read k => read fun c => (k c).attempt
  | peek k => peek fun c => (k c).attempt
  | bound k => bound fun n => (k n).attempt
  | mode k => mode fun m => (k m).attempt
  | mkErr c s k => mkErr c s fun e => (k e).attempt
  | mark k => mark k.attempt
  | record lit k => record lit k.attempt

def getc : Prog Char := read ret
def look : Prog Char := peek ret
def fuel : Prog Nat := bound ret
/-- eof.go:3-6. -/
def atEOF : Prog Bool := do let ch ← look; return decide (ch = eof)
/-- error.go:9-18. -/
def unexpected {α : Type} (found : Char) (expected : String) : Prog α := mkErr found expected throw

/-! The scanning code: the same lines of /repo as the definitions of the same names in
`Model/Scanner.lean`. -/

/-- ident.go:7-15. -/
def scanIdentLoop : Nat → Str → Prog Str
  | 0, _ => stop .fuel
  | n + 1, ident => do
    let next ← look
    if isLetter next ∨ isDecimalDigit next ∨ next = '_' then
      let c ← getc
      scanIdentLoop n (ident ++ [c])
    else
      return ident

/-- ident.go:4-16. -/
def scanIdent : Prog Str := do
  let c ← getc
  let n ← fuel
  scanIdentLoop n [c]

/-- comment.go:10-17. -/
def lineCommentLoop : Nat → Char → Str → Prog Str
  | 0, _, _ => stop .fuel
  | n + 1, ch, lit => do
    if ch ≠ '\n' then
      let lit := lit ++ [ch]
      if ← atEOF then
        return lit
      else
        let ch ← getc
        lineCommentLoop n ch lit
    else
      return lit

/-- comment.go:19-32. -/
def blockCommentLoop : Nat → Char → Str → Prog Str
  | 0, _, _ => stop .fuel
  | n + 1, ch, lit => do
    if ← atEOF then
      unexpected eof "\n"
    else
      let lit := lit ++ [ch]
      let ch ← getc
      let chn ← look
      if ch = '*' ∧ chn = '/' then
        let c ← getc
        return lit ++ [ch] ++ [c]
      else
        blockCommentLoop n ch lit

/-- comment.go:4-38. -/
def scanComment : Prog Str := do
  let c ← getc
  let ch ← getc
  let n ← fuel
  if ch = '/' then
    lineCommentLoop (n + 1) ch [c]
  else if ch = '*' then
    blockCommentLoop (n + 1) ch [c]
  else
    unexpected ch "/ or *"

/-- strLit.go:58-63. -/
def hexDigitsLoop : Nat → Str → Prog Str
  | 0, lit => return lit
  | n + 1, lit => do
    let c ← look
    if !isHexDigit c then
      return lit
    else
      let c ← getc
      hexDigitsLoop n (lit ++ [c])

/-- strLit.go:65-70. -/
def octalDigitsLoop : Nat → Str → Prog Str
  | 0, lit => return lit
  | n + 1, lit => do
    let c ← look
    if !isOctalDigit c then
      return lit
    else
      let c ← getc
      octalDigitsLoop n (lit ++ [c])

/-- strLit.go:40-76. -/
def tryScanEscape : Prog Str := do
  let c ← getc
  let lit := [c]
  let ch ← look
  if ch = 'x' ∨ ch = 'X' then
    let c ← getc
    hexDigitsLoop 2 (lit ++ [c])
  else if isOctalDigit ch then
    octalDigitsLoop 3 lit
  else if Scanner.isCharEscape ch then
    let c ← getc
    return lit ++ [c]
  else
    return lit

/-- strLit.go:24-35. -/
def scanCharValue : Prog Str := do
  let ch ← look
  if ch = eof ∨ ch = '\n' then
    unexpected ch "/[^\\0\\n\\\\]"
  else if ch = '\\' then
    tryScanEscape
  else
    let c ← getc
    return [c]

/-- strLit.go:9-16. -/
def strLitLoop (quote : Char) : Nat → Char → Str → Prog Str
  | 0, _, _ => stop .fuel
  | n + 1, ch, lit => do
    if ch ≠ quote then
      let cv ← scanCharValue
      let ch ← look
      strLitLoop quote n ch (lit ++ cv)
    else
      return lit

/-- strLit.go:4-21. -/
def scanStrLit : Prog Str := do
  let quote ← getc
  let ch ← look
  let n ← fuel
  let lit ← strLitLoop quote n ch [quote]
  let c ← getc
  return lit ++ [c]

/-- numberLit.go:22-27, 53-58, 62-67 and 165-170. -/
def digitsLoop (cls : Char → Bool) : Nat → Str → Prog Str
  | 0, _ => stop .fuel
  | n + 1, lit => do
    if ← atEOF then
      return lit
    else
      let c ← look
      if !cls c then
        return lit
      else
        let c ← getc
        digitsLoop cls n (lit ++ [c])

/-- numberLit.go:158-172. -/
def scanDecimals : Prog Str := do
  let ch ← look
  if !isDecimalDigit ch then
    unexpected ch "decimalDigit"
  else
    let c ← getc
    let n ← fuel
    digitsLoop isDecimalDigit n [c]

/-- numberLit.go:137-155. -/
def scanExponent : Prog Str := do
  let ch ← look
  if ch = 'e' ∨ ch = 'E' then
    let c ← getc
    let sgn ← look
    if sgn = '+' ∨ sgn = '-' then
      let c' ← getc
      let decimals ← scanDecimals
      return [c] ++ [c'] ++ decimals
    else
      let decimals ← scanDecimals
      return [c] ++ decimals
  else
    unexpected ch "e or E"

/-- numberLit.go:118-134. -/
def scanFractionPartNoOmit : Prog Str := do
  let decimals ← scanDecimals
  let ch ← look
  if ch = 'e' ∨ ch = 'E' then
    let exp ← scanExponent
    return decimals ++ exp
  else
    return decimals

/-- numberLit.go:106-114. -/
def scanFractionExp (lit : Str) : Prog Str := do
  let ch ← look
  if ch = 'e' ∨ ch = 'E' then
    let exp ← scanExponent
    return lit ++ exp
  else
    return lit

/-- numberLit.go:93-115. -/
def scanFractionPart : Prog Str := do
  let ch ← look
  if isDecimalDigit ch then
    let decimals ← scanDecimals
    scanFractionExp decimals
  else
    scanFractionExp []

/-- numberLit.go:9-90. -/
def scanNumberLit : Prog (Token × Str) := do
  let c ← getc
  let lit := [c]
  let ch ← look
  if lit = ['0'] ∧ (ch = 'x' ∨ ch = 'X') then
    let x ← getc
    let h ← look
    if !isHexDigit h then
      let h ← look
      unexpected h "hexDigit"
    else
      let h ← getc
      let n ← fuel
      let lit ← digitsLoop isHexDigit n (lit ++ [x] ++ [h])
      return (.intLit, lit)
  else if lit = ['.'] then
    let fractional ← scanFractionPartNoOmit
    return (.floatLit, lit ++ fractional)
  else if ch = '.' then
    let d ← getc
    let fractional ← scanFractionPart
    return (.floatLit, lit ++ [d] ++ fractional)
  else if ch = 'e' ∨ ch = 'E' then
    let exp ← scanExponent
    return (.floatLit, lit ++ exp)
  else if lit = ['0'] then
    let n ← fuel
    let lit ← digitsLoop isOctalDigit n lit
    return (.intLit, lit)
  else
    let n ← fuel
    let lit ← digitsLoop isDecimalDigit n lit
    let ch ← look
    if ch = '.' then
      let d ← getc
      let fractional ← scanFractionPart
      return (.floatLit, lit ++ [d] ++ fractional)
    else if ch = 'e' ∨ ch = 'E' then
      let exp ← scanExponent
      return (.floatLit, lit ++ exp)
    else
      return (.intLit, lit)

/-- Token, text and error of a scan; its position is `startPos`. -/
abbrev Out := Token × Str × Option Err

/-- scanner.go:143-191. -/
def scanLoop : Nat → Prog Out
  | 0 => stop .fuel
  | n + 1 => do
    let ch ← look
    mark do
    let mode ← mode ret
    if isSpace ch then
      let _ ← getc
      scanLoop n
    else if ← atEOF then
      return (.eof, [], none)
    else if isLetter ch ∨ ch = '_' then
      let ident ← scanIdent
      if mode.bool ∧ isBoolLit ident then
        return (.boolLit, ident, none)
      else if mode.number ∧ isFloatLitKeyword ident then
        return (.floatLit, ident, none)
      else if mode.keyword ∧ asKeywordToken ident ≠ .illegal then
        return (asKeywordToken ident, ident, none)
      else
        return (.ident, ident, none)
    else if ch = '/' then
      match ← attempt scanComment with
      | .error e => return (.illegal, [], some e)
      | .ok lit =>
        record lit do
        if mode.comment then
          return (.comment, lit, none)
        else
          scanLoop n
    else if isQuote ch ∧ mode.str then
      match ← attempt scanStrLit with
      | .error e => return (.illegal, [], some e)
      | .ok lit => return (.strLit, lit, none)
    else if (isDecimalDigit ch ∨ ch = '.') ∧ mode.number then
      match ← attempt scanNumberLit with
      | .error e => return (.illegal, [], some e)
      | .ok (tok, lit) => return (tok, lit, none)
    else
      let c ← getc
      return (asMiscToken ch, [c], none)

/-- scanner.go:106-109, behind the reset of `lastScanRaw`. -/
def scan : Prog Out := do
  let n ← fuel
  scanLoop n

/-- The run on the abstract state; `r` is `startPos`. -/
def run {α : Type} : Prog α → SPos → Scanner → Res Scanner Err (α × SPos)
  | ret a, r, s => .ok (a, r) s
  | throw e, _, s => .err e s
  | stop h, _, _ => .halt h
  | read k, r, s =>
    match Scanner.read s with
    | .ok c s' => (k c).run r s'
    | .err e s' => .err e s'
    | .halt h => .halt h
  | peek k, r, s =>
    match Scanner.peek s with
    | .ok c s' => (k c).run r s'
    | .err e s' => .err e s'
    | .halt h => .halt h
  | bound k, r, s => (k (s.inp.length + 1)).run r s
  | mode k, r, s => (k s.mode).run r s
  | mkErr c e k, r, s => (k (.single s.pos.p e (.rune c))).run r s
  | mark k, _, s => k.run s.pos s
  | record lit k, r, s => k.run r { s with comments := s.comments ++ [{ literal := lit, pos := r }] }

end Prog

/-! ## The concrete state -/

/-- What the scanner needs of a `*bufio.Reader`: `ReadRune`, where `none` is an error.  `Model/Reader.lean` has the
reader of the standard library; another one delivers the runes of a text. -/
structure RuneReader (ρ : Type) where
  readRune : ρ → Option Char × ρ

/-- The reader that delivers the runes of a text. -/
def textReader : RuneReader Str where
  readRune t := (t.head?, t.tail)

/-- `scanner.Scanner` and the `Position` it points to: scanner.go:18-32, position.go:10-15.  The map
`columns` is a function: a missing key reads as 0. -/
structure Concrete (ρ : Type) where
  /-- the state of the buffered reader -/
  reader : ρ
  /-- not part of the code: how often the reader is to be read, for the iteration bounds -/
  left : Nat
  /-- `lastReadBuffer`: the next rune is the last one -/
  buf : Str := []
  /-- `lastScanRaw` -/
  raw : Str := []
  p : Position
  columns : Int → Int := fun _ => 0
  mode : Mode := {}
  /-- literals and positions of `comments` -/
  comments : List (Str × Position) := []

namespace Concrete

variable {ρ : Type}

/-- `m[k] = v`. -/
def put (m : Int → Int) (k v : Int) : Int → Int := fun j => if j = k then v else m j

/-- `NewScanner` with `WithFilename`: scanner.go:38-54, position.go:18-27. -/
def new (reader : ρ) (left : Nat) (filename : Str) : Concrete ρ :=
  { reader, left, p := { filename, offset := 0, line := 1, column := 1 } }

/-- `Advance` of a position that has the map `columns`: position.go:35-47. -/
def advance (p : Position) (columns : Int → Int) (r : Char) : Position × (Int → Int) :=
  if r = '\n' then
    ({ p with offset := p.offset + r.utf8Size, line := p.line + 1, column := 1 },
      put columns p.line p.column)
  else ({ p with offset := p.offset + r.utf8Size, column := p.column + 1 }, columns)

/-- `Revert`: position.go:60-70. -/
def revert (p : Position) (columns : Int → Int) (r : Char) : Position :=
  if r = '\n' then
    { p with offset := p.offset - r.utf8Size, line := p.line - 1, column := columns (p.line - 1) }
  else { p with offset := p.offset - r.utf8Size, column := p.column - 1 }

/-- The loop of `AdvancedBulk`: position.go:51-53. -/
def advanceAll (p : Position) (columns : Int → Int) : Str → Position × (Int → Int)
  | [] => (p, columns)
  | r :: t => advanceAll (advance p columns r).1 (advance p columns r).2 t

/-- `AdvancedBulk` on a copy `q` of the position of the scanner: position.go:50-57.  It writes to the
map of the scanner. -/
def advancedBulk (q : Position) (t : Str) (c : Concrete ρ) : Position × Concrete ρ :=
  let r := advanceAll q c.columns t
  (revert r.1 r.2 (t.getLastD (Char.ofNat 0xFFFD)), { c with columns := r.2 })

/-- The rune that `read` takes: scanner.go:66-75. -/
def pop (rd : RuneReader ρ) (c : Concrete ρ) : Char × Concrete ρ :=
  match c.buf.getLast? with
  | some ch => (ch, { c with buf := c.buf.dropLast })
  | none =>
    match rd.readRune c.reader with
    | (none, r) => (eof, { c with reader := r, left := c.left - 1 })
    | (some ch, r) => (ch, { c with reader := r, left := c.left - 1 })

/-- `read`: scanner.go:56-76. -/
def read (rd : RuneReader ρ) (c : Concrete ρ) : Char × Concrete ρ :=
  let (ch, c) := pop rd c
  if ch = eof then (ch, c)
  else
    let a := advance c.p c.columns ch
    (ch, { c with raw := c.raw ++ [ch], p := a.1, columns := a.2 })

/-- `unread`: scanner.go:78-82. -/
def unread (ch : Char) (c : Concrete ρ) : Concrete ρ :=
  { c with buf := c.buf ++ [ch], p := revert c.p c.columns ch }

/-- `peek`: scanner.go:84-91. -/
def peek (rd : RuneReader ρ) (c : Concrete ρ) : Char × Concrete ρ :=
  let (ch, c) := read rd c
  if ch ≠ eof then (ch, unread ch { c with raw := c.raw.dropLast }) else (ch, c)

/-- `UnScan`: scanner.go:94-103. -/
def unScan (c : Concrete ρ) : Concrete ρ := c.raw.reverse.foldl (fun c ch => unread ch c) c

/-- The run of a program on the concrete state; `r` is `startPos`. -/
def run (rd : RuneReader ρ) {α : Type} : Prog α → Position → Concrete ρ → Res (Concrete ρ) Err (α × Position)
  | .ret a, r, c => .ok (a, r) c
  | .throw e, _, c => .err e c
  | .stop h, _, _ => .halt h
  | .read k, r, c => match read rd c with | (ch, c') => run rd (k ch) r c'
  | .peek k, r, c => match peek rd c with | (ch, c') => run rd (k ch) r c'
  | .bound k, r, c => run rd (k (c.buf.length + c.left + 1)) r c
  | .mode k, r, c => run rd (k c.mode) r c
  | .mkErr ch e k, r, c => run rd (k (.single c.p e (.rune ch))) r c
  | .mark k, _, c => run rd k c.p c
  | .record lit k, r, c => run rd k r { c with comments := c.comments ++ [(lit, r)] }

/-- `Scan`: scanner.go:106-109. -/
def scan (rd : RuneReader ρ) (c : Concrete ρ) : Res (Concrete ρ) Err (Prog.Out × Position) :=
  run rd Prog.scan c.p { c with raw := [] }

end Concrete

end Verif
