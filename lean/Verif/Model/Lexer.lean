import Verif.Model.Scanner

/-!
# The lexer

Models `lexer/lexer.go`, `fullIdent.go`, `messageType.go`, `enumType.go`, `constant.go`,
`emptyStatement.go` and `error.go`.

Not modelled: the debug log (`lexer.go:69-83`), which only writes to the process log.
-/

namespace Verif

/-- `lexer.Lexer`: lexer.go:13-34.  The errors that were passed to the callback `Error` (lexer.go:88-91) are
recorded in `log`; the callback of `NewLexer` writes each to the process log (lexer.go:60-62).  The field
`scanErr` is the last of them (`latestErr`). -/
structure Lexer where
  token : Token := .illegal
  text : Str := []
  rawText : Str := []
  pos : SPos := {}
  log : List Err := []
  scanner : Scanner
  deriving DecidableEq, Repr

/-- Code running on a lexer; the parser runs on the same state (its other fields are constant). -/
abbrev P := M Lexer Err

namespace Lexer

/-- `NewLexer` with `WithFilename`: lexer.go:54-65. -/
def new (inp filename : Str) : Lexer := { scanner := Scanner.new inp filename }

/-- `lex.Token`. -/
def tok : P Token := fun l => .ok l.token l
/-- `lex.Text`. -/
def txt : P Str := fun l => .ok l.text l
/-- `lex.Pos`. -/
def position : P SPos := fun l => .ok l.pos l

/-- `LatestErr`: lexer.go:148-150. -/
def latestErr (l : Lexer) : Option Err := l.log.getLast?

/-- Iteration bound for a loop that consumes input: not part of the code. -/
def bound : P Nat := fun l => .ok (l.scanner.inp.length + 1) l

/-- `(*Lexer).Next`: lexer.go:68-92, run in the scanner's current mode. -/
def nextCur : P Unit := fun l =>
  match Scanner.scan l.scanner with
  | .ok r sc =>
    .ok () { token := r.token, text := r.text, pos := r.pos, rawText := sc.raw,
             log := l.log ++ r.error.toList, scanner := sc }
  | .err e sc => .err e { l with scanner := sc }
  | .halt h => .halt h

/-- `nextWithSpecificMode`: lexer.go:132-140; the scanner's mode is restored afterwards. -/
def nextWith (m : Mode) : P Unit := fun l =>
  let mode := l.scanner.mode
  match nextCur { l with scanner := { l.scanner with mode := m } } with
  | .ok a l' => .ok a { l' with scanner := { l'.scanner with mode } }
  | .err e l' => .err e { l' with scanner := { l'.scanner with mode } }
  | .halt h => .halt h

/-- `Next`: lexer.go:68.  The scanner's mode is 0 except inside `nextWithSpecificMode`. -/
def next : P Unit := nextCur
/-- `NextKeywordOrStrLit`: lexer.go:103-105. -/
def nextKeywordOrStrLit : P Unit := nextWith .keywordOrStr
/-- `NextKeyword`: lexer.go:108-110. -/
def nextKeyword : P Unit := nextWith .kw
/-- `NextStrLit`: lexer.go:113-115. -/
def nextStrLit : P Unit := nextWith .strLit
/-- `NextLit`: lexer.go:118-120. -/
def nextLit : P Unit := nextWith .lit
/-- `NextNumberLit`: lexer.go:123-125. -/
def nextNumberLit : P Unit := nextWith .numberLit
/-- `NextComment`: lexer.go:128-130. -/
def nextComment : P Unit := nextWith .commentMode

/-- `NextN`: lexer.go:95-100. -/
def nextN : Nat → P Unit
  | 0 => return ()
  | n + 1 => do next; nextN n

/-- `UnNext`: lexer.go:175-178. -/
def unNext : P Unit := fun l =>
  let sc := l.scanner.unScan
  .ok () { l with pos := sc.pos, token := .illegal, scanner := sc }

/-- `UnNextTo`: lexer.go:181-184, with `SetLastScanRaw` (scanner.go:119-121). -/
def unNextTo (lastScan : Str) : P Unit := do
  M.modify (fun l => { l with scanner := { l.scanner with raw := lastScan } })
  unNext

/-- `IsEOF`: lexer.go:143-145. -/
def isEOF : P Bool := do
  let t ← tok
  return decide (t = .eof)

/-- `Peek`: lexer.go:153-157. -/
def peek : P Token := do
  next
  let t ← tok
  unNext
  return t

/-- The first loop of `PeekN`: lexer.go:161-166. -/
def peekNLoop : Nat → List Str → P (List Str)
  | 0, lasts => return lasts
  | n + 1, lasts => do
    next
    let l ← M.get
    peekNLoop n (lasts ++ [l.rawText])

/-- The second loop of `PeekN`, over `lasts` from the last element to the first: lexer.go:168-170. -/
def unNextAll : List Str → P Unit
  | [] => return ()
  | r :: rs => do unNextTo r; unNextAll rs

/-- `PeekN`: lexer.go:160-172. -/
def peekN (n : Nat) : P Token := do
  let lasts ← peekNLoop n []
  let token ← tok
  unNextAll lasts.reverse
  return token

/-- `ConsumeToken`: lexer.go:187-193. -/
def consumeToken (t : Token) : P Unit := do
  next
  let tk ← tok
  if tk = t then
    return ()
  else
    unNext

/-- `FindMidComments`: lexer.go:196-205. -/
def findMidComments (l : Lexer) (from_ to : SPos) : List Text :=
  l.scanner.getScannedComments.filter (fun c =>
    from_.p.offset < c.pos.p.offset ∧ c.pos.p.offset < to.p.offset)

/-- `(*Lexer).unexpected`: error.go:9-20. -/
def unexpected {α : Type} (expected : String) : P α := fun l =>
  .err (.single l.pos.p expected (.text l.text)) l

/-- `ReadEmptyStatement`: emptyStatement.go:12-20. -/
def readEmptyStatement : P Unit := do
  next
  let t ← tok
  if t = .semicolon then
    return ()
  else
    unNext
    unexpected ";"

/-- The loop of `ReadFullIdent`: fullIdent.go:17-29. -/
def readFullIdentLoop : Nat → Str → P Str
  | 0, _ => M.stop .fuel
  | n + 1, fullIdent => do
    if ← isEOF then
      return fullIdent
    else
      let t ← tok
      if t ≠ .dot then
        unNext
        return fullIdent
      else
        next
        let t ← tok
        if t ≠ .ident then
          unexpected "TIDENT"
        else
          let x ← txt
          next
          readFullIdentLoop n (fullIdent ++ (c!"." ++ x))

/-- `ReadFullIdent`: fullIdent.go:7-31. -/
def readFullIdent : P (Str × SPos) := do
  next
  let t ← tok
  if t ≠ .ident then
    unexpected "TIDENT"
  else
    let startPos ← position
    let fullIdent ← txt
    next
    let n ← bound
    let r ← readFullIdentLoop n fullIdent
    return (r, startPos)

/-- The loop of `ReadMessageType`: messageType.go:20-34. -/
def readMessageTypeLoop : Nat → Str → P Str
  | 0, _ => M.stop .fuel
  | n + 1, messageType => do
    if ← isEOF then
      return messageType
    else
      let t ← tok
      if t ≠ .ident then
        unexpected "ident"
      else
        let x ← txt
        next
        let t ← tok
        if t ≠ .dot then
          unNext
          return messageType ++ x
        else
          let d ← txt
          next
          readMessageTypeLoop n (messageType ++ x ++ d)

/-- The optional leading dot of `ReadMessageType`: messageType.go:12-17. -/
def readLeadingDot : P Str := do
  let t ← tok
  if t = .dot then
    txt
  else
    unNext
    return []

/-- `ReadMessageType`: messageType.go:8-37. -/
def readMessageType : P (Str × SPos) := do
  next
  let startPos ← position
  let messageType ← readLeadingDot
  next
  let n ← bound
  let r ← readMessageTypeLoop n messageType
  return (r, startPos)

/-- `ReadEnumType`: enumType.go:8-10. -/
def readEnumType : P (Str × SPos) := readMessageType

/-- `strings.Trim(s, q)` for a one-rune cutset `q` (Go standard library). -/
def trim (s : Str) (q : Char) : Str :=
  ((s.dropWhile (· = q)).reverse.dropWhile (· = q)).reverse

/-- The loop of `mergeMultilineStrLit`: constant.go:57-61. -/
def mergeLoop (q : Char) : Nat → Str → P Str
  | 0, _ => M.stop .fuel
  | n + 1, b => do
    let t ← tok
    if t = .strLit then
      let x ← txt
      nextLit
      mergeLoop q n (b ++ trim x q)
    else
      return b

/-- The quote chosen by `mergeMultilineStrLit`: constant.go:51-54. -/
def mergeQuote (text : Str) : Char := if text.head? = some '"' then '"' else '\''

/-- `mergeMultilineStrLit`: constant.go:50-65. -/
def mergeMultilineStrLit : P Str := do
  let x ← txt
  let q := mergeQuote x
  let n ← bound
  let b ← mergeLoop q (n + 1) [q]
  unNext
  return b ++ [q]

/-- `ReadConstant`: constant.go:11-47. -/
def readConstant (permissive : Bool) : P (Str × SPos) := do
  nextLit
  let startPos ← position
  let cons ← txt
  let t ← tok
  if t = .strLit then
    if permissive then
      let r ← mergeMultilineStrLit
      return (r, startPos)
    else
      return (cons, startPos)
  else if t = .boolLit then
    return (cons, startPos)
  else if t = .ident then
    unNext
    readFullIdent
  else if t = .intLit ∨ t = .floatLit then
    return (cons, startPos)
  else if cons = c!"-" ∨ cons = c!"+" then
    nextLit
    let t ← tok
    if t = .intLit ∨ t = .floatLit then
      let x ← txt
      return (cons ++ x, startPos)
    else
      unexpected "TINTLIT or TFLOATLIT"
  else
    unexpected "constant"

end Lexer

end Verif
