import Verif.Model.Ast

/-!
# The parser

Models `parser/*.go` function by function.  A Go method of `*Parser` becomes a computation in
`P = M Lexer Err`; the two configuration fields of `Parser` are passed as a parameter `cfg`.

Conventions
* `return nil, p.unexpected(..)` is `unexpected ..`; a caller that inspects `err` itself uses
  `attempt`; a caller that replaces the error uses `orElse`.
* The recurring three lines `p.lex.Next(); if p.lex.Token != T { return p.unexpected(..) }` are
  written `expect .. T ..`.
* Every loop carries an iteration bound; exhausting it is `Halt.fuel`.  For the loops that only
  consume input it is taken from the length of the remaining input (`Lexer.bound`), and it is proved
  that it is never exhausted.  The recursion of messages and groups, the loop over the statements of
  a message body and the loop over the statements of a file take their bounds from `cfg.fuel`: error
  recovery after a failed group can put text back twice, so the remaining input is no bound for them.
-/

namespace Verif

open Lexer

/-- The configuration fields of `parser.Parser`: parser.go:6-11.  `fuel` is not part of the code: it
bounds the nesting depth of messages and the number of statements in a message body or file. -/
structure Cfg where
  permissive : Bool := false
  bodyIncludingComments : Bool := false
  fuel : Nat := 0
  deriving DecidableEq, Repr

namespace Parser

/-- `(*Parser).unexpected`: error.go:10-19. -/
def unexpected {α : Type} (expected : String) : P α := fun l =>
  .err (.single l.pos.p expected (.token l.text l.token l.pos.p)) l

/-- `x, err := m(); if err != nil { return nil, p.unexpected(expected) }`. -/
def orUnexpected {α : Type} (m : P α) (expected : String) : P α := do
  match ← M.attempt m with
  | .ok a => return a
  | .error _ => unexpected expected

/-- `p.lex.NextX(); if p.lex.Token != t { return nil, p.unexpected(expected) }`. -/
def expect (nx : P Unit) (t : Token) (expected : String) : P Unit := do
  nx
  let tk ← tok
  if tk = t then
    return ()
  else
    unexpected expected

/-- `p.lex.NextKeyword(); token := p.lex.Token; p.lex.UnNext()`: proto.go:104-106, message.go:136-138,
enum.go:158-160, extend.go:134-136, service.go:158-160 and 361-363, oneof.go:119-121. -/
def peekKeyword : P Token := do
  nextKeyword
  let t ← tok
  unNext
  return t

/-- `(*Parser).IsEOF`: parser.go:43-47. -/
def isEOF : P Bool := do
  Lexer.next
  let b ← Lexer.isEOF
  unNext
  return b

/-! ## Comments: comment.go, inlineComment.go -/

/-- The `Comment` built from a literal and its position: comment.go:67-73 and 82-88. -/
def mkComment (literal : Str) (pos : SPos) : Comment :=
  { raw := literal, info := { pos := pos.p, lastPos := (pos.advancedBulk literal).p } }

/-- `parseComment`: comment.go:64-77.  The deferred `UnNext` runs after the error value is built. -/
def parseComment : P Comment := do
  nextComment
  let t ← tok
  if t = .comment then
    let x ← txt
    let pos ← position
    return mkComment x pos
  else
    let r ← M.attempt (unexpected "comment" : P Comment)
    unNext
    match r with
    | .ok c => return c
    | .error e => M.throw e

/-- The loop of `ParseComments`: comment.go:53-60. -/
def parseCommentsLoop : Nat → List Comment → P (List Comment)
  | 0, _ => M.stop .fuel
  | n + 1, comments => do
    match ← M.attempt parseComment with
    | .error _ => return comments
    | .ok comment => parseCommentsLoop n (comments ++ [comment])

/-- `ParseComments`: comment.go:51-61. -/
def parseComments : P (List Comment) := do
  let n ← bound
  parseCommentsLoop n []

/-- `findEmbeddedComments`: comment.go:79-91. -/
def findEmbeddedComments (from_ to : SPos) : P (List Comment) := fun l =>
  .ok ((l.findMidComments from_ to).map (fun c => mkComment c.literal c.pos)) l

/-- `parseInlineComment`: inlineComment.go:19-33. -/
def parseInlineComment : P (Option Comment) := do
  let currentPos ← position
  match ← M.attempt parseComment with
  | .error _ => return none
  | .ok comment =>
    if currentPos.p.line ≠ comment.info.pos.line then
      unNext
      return none
    else
      return some comment

/-- `SetInlineComment`, dispatched on the dynamic type.  Calling it on the nil interface value
panics.  A `Comment` has no such method; the code never makes that call. -/
def setInlineComment (v : Visitee) (c : Comment) : P Visitee :=
  match v with
  | .nil => M.stop .panic
  | .comment _ => M.stop .panic
  | .importStmt x => return .importStmt { x with inlineComment := some c }
  | .package x => return .package { x with inlineComment := some c }
  | .option x => return .option { x with inlineComment := some c }
  | .message x => return .message { x with inlineComment := some c }
  | .enum x => return .enum { x with inlineComment := some c }
  | .service x => return .service { x with inlineComment := some c }
  | .extend x => return .extend { x with inlineComment := some c }
  | .emptyStatement x => return .emptyStatement { x with inlineComment := some c }
  | .field x => return .field { x with inlineComment := some c }
  | .enumField x => return .enumField { x with inlineComment := some c }
  | .oneof x => return .oneof { x with inlineComment := some c }
  | .mapField x => return .mapField { x with inlineComment := some c }
  | .groupField x => return .groupField { x with inlineComment := some c }
  | .reserved x => return .reserved { x with inlineComment := some c }
  | .extensions x => return .extensions { x with inlineComment := some c }
  | .rpc x => return .rpc { x with inlineComment := some c }

/-- `MaybeScanInlineComment`: inlineComment.go:9-17. -/
def maybeScanInlineComment (v : Visitee) : P Visitee := do
  match ← parseInlineComment with
  | none => return v
  | some c => setInlineComment v c

/-- The tail of a block in permissive mode, `lastPos := p.lex.Pos; if p.permissive { .. }`:
message.go:118-125 and 154-161, enum.go:176-183, extend.go:115-122 and 152-159, oneof.go:149-156,
service.go:176-183 and 255-262. -/
def blockLastPos (cfg : Cfg) : P SPos := do
  let lastPos ← position
  if cfg.permissive then
    consumeToken .semicolon
    let t ← tok
    if t = .semicolon then
      position
    else
      return lastPos
  else
    return lastPos

/-! ## syntax.go, edition.go, package.go, import.go -/

/-- `ParseSyntax`: syntax.go:60-104.  `none` is the nil result. -/
def parseSyntax : P (Option Syntax) := do
  nextKeyword
  let t ← tok
  if t ≠ .kSyntax then
    unNext
    return none
  else
    let startPos ← position
    expect next .equals "="
    expect next .quote "quote"
    let lq ← txt
    next
    let version ← txt
    if version ≠ c!"proto3" ∧ version ≠ c!"proto2" then
      unexpected "proto3 or proto2"
    else
      expect next .quote "quote"
      let tq ← txt
      expect next .semicolon ";"
      let lastPos ← position
      return some { protobufVersion := version, protobufVersionQuote := lq ++ version ++ tq,
                    info := { pos := startPos.p, lastPos := lastPos.p } }

/-- `(*Syntax).Version`: syntax.go:43-52. -/
def Syntax.version (s : Syntax) : Nat :=
  if s.protobufVersion = c!"proto3" then 3
  else if s.protobufVersion = c!"proto2" then 2
  else 0

/-- `ParseEdition`: edition.go:47-91. -/
def parseEdition : P (Option Edition) := do
  nextKeyword
  let t ← tok
  if t ≠ .kEdition then
    unNext
    return none
  else
    let startPos ← position
    expect next .equals "="
    expect next .quote "quote"
    let lq ← txt
    expect nextNumberLit .intLit "intLit"
    let edition ← txt
    expect next .quote "quote"
    let tq ← txt
    expect next .semicolon ";"
    let lastPos ← position
    return some { edition, editionQuote := lq ++ edition ++ tq,
                  info := { pos := startPos.p, lastPos := lastPos.p } }

/-- `ParsePackage`: package.go:44-68. -/
def parsePackage : P Package := do
  expect nextKeyword .kPackage "package"
  let startPos ← position
  let (ident, _) ← orUnexpected readFullIdent "fullIdent"
  expect next .semicolon ";"
  let lastPos ← position
  return { name := ident, info := { pos := startPos.p, lastPos := lastPos.p } }

/-- The modifier switch of `ParseImport`: import.go:62-72.  A token that matches no case leaves the
modifier at its zero value and stays consumed. -/
def parseImportModifier : P ImportModifier := do
  nextKeywordOrStrLit
  let t ← tok
  if t = .kPublic then
    return .public
  else if t = .kWeak then
    return .weak
  else if t = .strLit then
    unNext
    return .none
  else
    return .none

/-- `ParseImport`: import.go:55-93. -/
def parseImport : P Import := do
  expect nextKeyword .kImport "\"import\""
  let startPos ← position
  let modifier ← parseImportModifier
  expect nextStrLit .strLit "strLit"
  let location ← txt
  expect next .semicolon ";"
  let lastPos ← position
  return { modifier, location, info := { pos := startPos.p, lastPos := lastPos.p } }

/-! ## option.go -/

/-- The permissive leading dot, `if p.permissive { .. }`: option.go:164-172 and 204-212. -/
def optionNameDot (cfg : Cfg) : P Str := do
  if cfg.permissive then
    next
    let t ← tok
    if t = .dot then
      return c!"."
    else
      unNext
      return []
  else
    return []

/-- One part of an option name, the token having been read: option.go:158-187 and 198-227. -/
def optionNamePart (cfg : Cfg) (expected : String) : P Str := do
  let t ← tok
  let x ← txt
  if t = .ident then
    return x
  else if t = .leftParen then
    let dot ← optionNameDot cfg
    let (fullIdent, _) ← readFullIdent
    expect next .rightParen ")"
    let r ← txt
    return x ++ dot ++ fullIdent ++ r
  else
    unexpected expected

/-- The loop of `parseOptionName`: option.go:189-228. -/
def optionNameLoop (cfg : Cfg) : Nat → Str → P Str
  | 0, _ => M.stop .fuel
  | n + 1, optionName => do
    next
    let t ← tok
    if t ≠ .dot then
      unNext
      return optionName
    else
      let d ← txt
      next
      let part ← optionNamePart cfg "ident or bracedFullIdent"
      optionNameLoop cfg n (optionName ++ d ++ part)

/-- `parseOptionName`: option.go:154-230. -/
def parseOptionName (cfg : Cfg) : P Str := do
  next
  let part ← optionNamePart cfg "ident or left paren"
  let n ← bound
  optionNameLoop cfg n part

/-- What follows a field name in `parseCloudEndpointsOptionConstant`: option.go:103-121.  Returns
the text to append and `needSemi`. -/
def cloudSeparator (cfg : Cfg) : P (Str × Bool) := do
  next
  let t ← tok
  if t = .leftCurly then
    if !cfg.permissive then
      unexpected ":"
    else
      unNext
      return ([], false)
  else if t = .colon then
    let x ← txt
    let pk ← peek
    return (x, decide (pk = .leftCurly) && cfg.permissive)
  else if cfg.permissive then
    unexpected "{ or :"
  else
    unexpected ":"

/-- The extra semicolon after a nested message: option.go:129-133. -/
def cloudNeedSemi (cfg : Cfg) (needSemi : Bool) : P Str := do
  next
  let t ← tok
  if t = .semicolon ∧ needSemi ∧ cfg.permissive then
    let x ← txt
    next
    return x
  else
    return []

/-- The closing switch of `parseCloudEndpointsOptionConstant`: option.go:135-149.  Returns the text
to append and whether the constant is complete. -/
def cloudClose (cfg : Cfg) : P (Str × Bool) := do
  let t ← tok
  if t = .comma ∨ t = .semicolon then
    let x ← txt
    let pk ← peek
    if pk = .rightCurly ∧ cfg.permissive then
      next
      let y ← txt
      return (x ++ y, true)
    else
      return (x, false)
  else if t = .rightCurly then
    let x ← txt
    return (x, true)
  else
    unNext
    return (c!"\n", false)

/-- The loop of `parseCloudEndpointsOptionConstant`: option.go:96-150; `constant` is
`parseOptionConstant`. -/
def cloudLoop (cfg : Cfg) (constant : P Str) : Nat → Str → P Str
  | 0, _ => M.stop .fuel
  | n + 1, ret => do
    expect next .ident "ident"
    let x ← txt
    let (sep, needSemi) ← cloudSeparator cfg
    let c ← constant
    let semi ← cloudNeedSemi cfg needSemi
    let (cl, done) ← cloudClose cfg
    let ret := ret ++ x ++ sep ++ c ++ semi ++ cl
    if done then
      return ret
    else
      cloudLoop cfg constant n ret

/-- `parseCloudEndpointsOptionConstant`: option.go:87-151. -/
def parseCloud (cfg : Cfg) (constant : P Str) : P Str := do
  expect next .leftCurly "{"
  let x ← txt
  let n ← bound
  cloudLoop cfg constant n x

/-- The loop of `parseOptionConstants`: option.go:289-301.  `acc` is `strings.Join(opts, ",")` of the
options read so far. -/
def constantsLoop (constant : P Str) : Nat → Str → P Str
  | 0, _ => M.stop .fuel
  | n + 1, acc => do
    next
    let t ← tok
    if t ≠ .comma then
      unNext
      return acc
    else
      let opt ← orUnexpected constant "optionConstant"
      constantsLoop constant n (acc ++ c!"," ++ opt)

/-- `parseOptionConstants`: option.go:280-303. -/
def parseOptionConstants (constant : P Str) : P Str := do
  let opt ← constant
  let n ← bound
  constantsLoop constant n opt

/-- `parseOptionConstant` with a bound on the nesting depth: option.go:232-277. -/
def optionConstant (cfg : Cfg) : Nat → P Str
  | 0 => M.stop .fuel
  | d + 1 => do
    let pk ← peek
    if pk = .leftCurly then
      if !cfg.permissive then
        unexpected "constant or permissive mode"
      else
        let pk2 ← peekN 2
        if pk2 = .rightCurly then
          nextN 2
          return c!"{}"
        else
          parseCloud cfg (optionConstant cfg d)
    else if pk = .leftSquare then
      if !cfg.permissive then
        unexpected "constant or permissive mode"
      else
        next
        let pk2 ← peek
        if pk2 = .rightSquare then
          next
          return c!"[]"
        else
          let constant ← parseOptionConstants (optionConstant cfg d)
          next
          return c!"[" ++ constant ++ c!"]"
    else
      let (constant, _) ← readConstant cfg.permissive
      return constant

/-- `parseOptionConstant`: option.go:232-277. -/
def parseOptionConstant (cfg : Cfg) : P Str := do
  let n ← bound
  optionConstant cfg n

/-- `ParseOption`: option.go:47-82. -/
def parseOption (cfg : Cfg) : P OptionStmt := do
  expect nextKeyword .kOption "option"
  let startPos ← position
  let optionName ← parseOptionName cfg
  expect next .equals "="
  let constant ← parseOptionConstant cfg
  expect next .semicolon ";"
  let lastPos ← position
  return { optionName, constant, info := { pos := startPos.p, lastPos := lastPos.p } }

/-! ## field.go -/

/-- The keys of `typeConstants`: field.go:190-206. -/
def typeConstants : List Str :=
  [c!"double", c!"float", c!"int32", c!"int64", c!"uint32", c!"uint64", c!"sint32", c!"sint64",
   c!"fixed32", c!"fixed64", c!"sfixed32", c!"sfixed64", c!"bool", c!"string", c!"bytes"]

/-- `parseType`: field.go:214-226. -/
def parseType : P (Str × SPos) := do
  next
  let x ← txt
  if x ∈ typeConstants then
    let pos ← position
    return (x, pos)
  else
    unNext
    readMessageType

/-- `parseFieldNumber`: field.go:230-236. -/
def parseFieldNumber : P Str := do
  expect nextNumberLit .intLit "intLit"
  txt

/-- `parseFieldOption`: field.go:168-188, and `parseEnumValueOption`: enum.go:310-330 (the same
code). -/
def parseFieldOption (cfg : Cfg) : P FieldOption := do
  let optionName ← parseOptionName cfg
  expect next .equals "="
  let constant ← parseOptionConstant cfg
  return { optionName, constant }

/-- The loop of `parseFieldOptions`: field.go:150-162, and of `parseEnumValueOptions`:
enum.go:287-299; they differ in the error text only. -/
def fieldOptionsLoop (cfg : Cfg) (expected : String) : Nat → List FieldOption → P (List FieldOption)
  | 0, _ => M.stop .fuel
  | n + 1, opts => do
    next
    let t ← tok
    if t ≠ .comma then
      unNext
      return opts
    else
      let opt ← orUnexpected (parseFieldOption cfg) expected
      fieldOptionsLoop cfg expected n (opts ++ [opt])

/-- `parseFieldOptions`: field.go:141-164. -/
def parseFieldOptions (cfg : Cfg) : P (List FieldOption) := do
  let opt ← parseFieldOption cfg
  let n ← bound
  fieldOptionsLoop cfg "fieldOption" n [opt]

/-- `parseFieldOptionsOption`: field.go:121-137. -/
def parseFieldOptionsOption (cfg : Cfg) : P (List FieldOption) := do
  next
  let t ← tok
  if t = .leftSquare then
    let fieldOptions ← parseFieldOptions cfg
    expect next .rightSquare "]"
    return fieldOptions
  else
    unNext
    return []

/-- The label of a field, as the three flags: field.go:61-75 and groupField.go:64-78. -/
structure Label where
  isRepeated : Bool := false
  isRequired : Bool := false
  isOptional : Bool := false
  deriving DecidableEq, Repr

/-- The label switch, `NextKeyword` having been called: field.go:67-75, groupField.go:70-78. -/
def parseLabel : P Label := do
  let t ← tok
  if t = .kRepeated then
    return { isRepeated := true }
  else if t = .kRequired then
    return { isRequired := true }
  else if t = .kOptional then
    return { isOptional := true }
  else
    unNext
    return {}

/-- `ParseField`: field.go:60-118. -/
def parseField (cfg : Cfg) : P Field := do
  nextKeyword
  let startPos ← position
  let label ← parseLabel
  let (type, _) ← orUnexpected parseType "type"
  expect next .ident "fieldName"
  let fieldName ← txt
  expect next .equals "="
  let fieldNumber ← orUnexpected parseFieldNumber "fieldNumber"
  let fieldOptions ← parseFieldOptionsOption cfg
  expect next .semicolon ";"
  let lastPos ← position
  return { isRepeated := label.isRepeated, isRequired := label.isRequired,
           isOptional := label.isOptional, type, fieldName, fieldNumber, fieldOptions,
           info := { pos := startPos.p, lastPos := lastPos.p } }

/-! ## mapField.go -/

/-- The keys of `keyTypeConstants`: mapField.go:116-129. -/
def keyTypeConstants : List Str :=
  [c!"int32", c!"int64", c!"uint32", c!"uint64", c!"sint32", c!"sint64",
   c!"fixed32", c!"fixed64", c!"sfixed32", c!"sfixed64", c!"bool", c!"string"]

/-- `parseKeyType`: mapField.go:136-142. -/
def parseKeyType : P Str := do
  next
  let x ← txt
  if x ∈ keyTypeConstants then
    return x
  else
    unexpected "keyType constant"

/-- `ParseMapField`: mapField.go:48-114. -/
def parseMapField (cfg : Cfg) : P MapField := do
  expect nextKeyword .kMap "map"
  let startPos ← position
  expect next .less "<"
  let keyType ← parseKeyType
  expect next .comma ","
  let (type, _) ← orUnexpected parseType "type"
  expect next .greater ">"
  expect next .ident "mapName"
  let mapName ← txt
  expect next .equals "="
  let fieldNumber ← orUnexpected parseFieldNumber "fieldNumber"
  let fieldOptions ← parseFieldOptionsOption cfg
  expect next .semicolon ";"
  let lastPos ← position
  return { keyType, type, mapName, fieldNumber, fieldOptions,
           info := { pos := startPos.p, lastPos := lastPos.p } }

/-! ## oneof.go -/

/-- `parseOneofField`: oneof.go:172-211. -/
def parseOneofField (cfg : Cfg) : P OneofField := do
  let (type, startPos) ← orUnexpected parseType "type"
  expect next .ident "fieldName"
  let fieldName ← txt
  expect next .equals "="
  let fieldNumber ← orUnexpected parseFieldNumber "fieldNumber"
  let fieldOptions ← parseFieldOptionsOption cfg
  expect next .semicolon ";"
  let lastPos ← position
  return { type, fieldName, fieldNumber, fieldOptions,
           info := { pos := startPos.p, lastPos := lastPos.p } }

/-- The body of one iteration of `ParseOneof` after the empty statement test: oneof.go:119-139. -/
def parseOneofElement (cfg : Cfg) (comments : List Comment) :
    P (Sum OptionStmt OneofField) := do
  let token ← peekKeyword
  if token = .kOption then
    let option ← parseOption cfg
    let inlineComment ← parseInlineComment
    return .inl { option with comments, inlineComment }
  else
    let oneofField ← parseOneofField cfg
    let inlineComment ← parseInlineComment
    return .inr { oneofField with comments, inlineComment }

/-- The loop of `ParseOneof`: oneof.go:111-147. -/
def oneofLoop (cfg : Cfg) : Nat → List OneofField → List OptionStmt →
    P (List OneofField × List OptionStmt)
  | 0, _, _ => M.stop .fuel
  | n + 1, oneofFields, options => do
    let comments ← parseComments
    match ← M.attempt readEmptyStatement with
    | .ok _ => oneofLoop cfg n oneofFields options
    | .error _ =>
      match ← parseOneofElement cfg comments with
      | .inl option =>
        next
        let t ← tok
        if t = .rightCurly then
          return (oneofFields, options ++ [option])
        else
          unNext
          oneofLoop cfg n oneofFields (options ++ [option])
      | .inr oneofField =>
        next
        let t ← tok
        if t = .rightCurly then
          return (oneofFields ++ [oneofField], options)
        else
          unNext
          oneofLoop cfg n (oneofFields ++ [oneofField]) options

/-- `ParseOneof`: oneof.go:89-168. -/
def parseOneof (cfg : Cfg) : P Oneof := do
  expect nextKeyword .kOneof "oneof"
  let startPos ← position
  expect next .ident "oneofName"
  let oneofName ← txt
  expect next .leftCurly "{"
  let inlineLeftCurly ← parseInlineComment
  let n ← bound
  let (oneofFields, options) ← oneofLoop cfg n [] []
  let lastPos ← blockLastPos cfg
  return { oneofFields, oneofName, options, inlineCommentBehindLeftCurly := inlineLeftCurly,
           info := { pos := startPos.p, lastPos := lastPos.p } }

/-! ## reserved.go -/

/-- `parseRange`: reserved.go:134-162. -/
def parseRange : P Range := do
  nextNumberLit
  let t ← tok
  if t ≠ .intLit then
    unNext
    unexpected "intLit"
  else
    let begin_ ← txt
    next
    let x ← txt
    if x ≠ c!"to" then
      unNext
      return { begin_ }
    else
      nextNumberLit
      let t ← tok
      let e ← txt
      if t = .intLit ∨ e = c!"max" then
        return { begin_, end_ := e }
      else
        unexpected "\"intLit | \"max\""

/-- The loop of `parseRanges`: reserved.go:116-128. -/
def rangesLoop : Nat → List Range → P (List Range)
  | 0, _ => M.stop .fuel
  | n + 1, ranges => do
    next
    let t ← tok
    if t ≠ .comma then
      unNext
      return ranges
    else
      let rangeValue ← parseRange
      rangesLoop n (ranges ++ [rangeValue])

/-- `parseRanges`: reserved.go:108-130. -/
def parseRanges : P (List Range) := do
  let rangeValue ← parseRange
  let n ← bound
  rangesLoop n [rangeValue]

/-- `parseQuotedFieldName`: reserved.go:225-232. -/
def parseQuotedFieldName : P Str := do
  nextStrLit
  let t ← tok
  if t ≠ .strLit then
    unNext
    unexpected "quotedFieldName"
  else
    txt

/-- `parseFieldName`: reserved.go:207-220. -/
def parseFieldName : P Str := do
  match ← M.attempt parseQuotedFieldName with
  | .ok quoted => return quoted
  | .error _ =>
    next
    let t ← tok
    if t ≠ .ident then
      unNext
      unexpected "fieldName or quotedFieldName"
    else
      txt

/-- The loop of `parseFieldNames`: reserved.go:178-202. -/
def fieldNamesLoop : Nat → List Str → P (List Str)
  | 0, _ => M.stop .fuel
  | n + 1, fieldNames => do
    next
    let t ← tok
    if t = .comma then
      let fieldName ← parseFieldName
      fieldNamesLoop n (fieldNames ++ [fieldName])
    else
      unNext
      match ← M.attempt parseFieldName with
      | .error _ => return fieldNames
      | .ok nextFieldName => fieldNamesLoop n (fieldNames ++ [nextFieldName])

/-- `parseFieldNames`: reserved.go:169-204. -/
def parseFieldNames : P (List Str) := do
  let fieldName ← parseFieldName
  let n ← bound
  fieldNamesLoop n [fieldName]

/-- The closure `parse` of `ParseReserved`: reserved.go:72-87. -/
def parseReservedBody : P (List Range × List Str) := do
  match ← M.attempt parseRanges with
  | .ok ranges => return (ranges, [])
  | .error err =>
    match ← M.attempt parseFieldNames with
    | .ok fieldNames => return ([], fieldNames)
    | .error ferr => M.throw (.pair err ferr)

/-- `ParseReserved`: reserved.go:65-104. -/
def parseReserved : P Reserved := do
  expect nextKeyword .kReserved "reserved"
  let startPos ← position
  let (ranges, fieldNames) ← parseReservedBody
  expect next .semicolon ";"
  let lastPos ← position
  return { ranges, fieldNames, info := { pos := startPos.p, lastPos := lastPos.p } }

/-! ## declaration.go, extensions.go -/

/-- The five local variables of `ParseDeclaration`: declaration.go:78-82. -/
structure DeclAcc where
  number : Str := []
  fullName : Str := []
  type : Str := []
  repeated : Bool := false
  reserved : Bool := false
  deriving DecidableEq, Repr

/-- The chain of tests on one item of a declaration: declaration.go:94-146. -/
def parseDeclItem (a : DeclAcc) : P DeclAcc := do
  let t ← tok
  if t = .kNumber then
    expect next .colon ":"
    expect nextNumberLit .intLit "number"
    let x ← txt
    return { a with number := x }
  else if t = .kFullName then
    expect next .colon ":"
    expect nextStrLit .strLit "full_name string"
    let x ← txt
    return { a with fullName := x }
  else if t = .kType then
    expect next .colon ":"
    expect nextStrLit .strLit "type string"
    let x ← txt
    return { a with type := x }
  else if t = .kRepeated then
    expect next .colon ":"
    expect next .ident "repeated bool"
    let x ← txt
    return { a with repeated := decide (x = c!"true") }
  else if t = .kReserved then
    expect next .colon ":"
    expect next .ident "reserved bool"
    let x ← txt
    return { a with reserved := decide (x = c!"true") }
  else
    unexpected "number, full_name, type, repeated, reserved, or }"

/-- The loop of `ParseDeclaration`: declaration.go:84-147. -/
def declLoop : Nat → DeclAcc → P DeclAcc
  | 0, _ => M.stop .fuel
  | n + 1, a => do
    next
    let t ← tok
    if t = .rightCurly then
      return a
    else if t ≠ .comma then
      unNext
      nextKeyword
      let a ← parseDeclItem a
      declLoop n a
    else
      nextKeyword
      let a ← parseDeclItem a
      declLoop n a

/-- `ParseDeclaration`: declaration.go:59-158. -/
def parseDeclaration : P Declaration := do
  expect nextKeyword .kDeclaration "declaration"
  let startPos ← position
  expect next .equals "="
  expect next .leftCurly "{"
  let inlineLeftCurly ← parseInlineComment
  let n ← bound
  let a ← declLoop n {}
  let lastPos ← position
  return { number := a.number, fullName := a.fullName, type := a.type, reserved := a.reserved,
           repeated := a.repeated, inlineCommentBehindLeftCurly := inlineLeftCurly,
           info := { pos := startPos.p, lastPos := lastPos.p } }

/-- `assignInlineComments`: extensions.go:120-126; the last non-nil comment wins. -/
def assignInlineComments (d : Declaration) (c1 c2 : Option Comment) : Declaration :=
  let d := match c1 with
    | some c => { d with inlineComment := some c }
    | none => d
  match c2 with
  | some c => { d with inlineComment := some c }
  | none => d

/-- The loop of `parseDeclarations`: extensions.go:94-115. -/
def declarationsLoop : Nat → List Declaration → P (List Declaration)
  | 0, _ => M.stop .fuel
  | n + 1, declarations => do
    let comments ← parseComments
    let declaration ← parseDeclaration
    let declaration := { declaration with comments }
    next
    let token ← tok
    let inlineComment1 ← parseInlineComment
    if token = .rightSquare then
      let inlineComment2 ← parseInlineComment
      return declarations ++ [assignInlineComments declaration inlineComment1 inlineComment2]
    else if token ≠ .comma then
      unexpected ", or ]"
    else
      let inlineComment2 ← parseInlineComment
      declarationsLoop n
        (declarations ++ [assignInlineComments declaration inlineComment1 inlineComment2])

/-- `parseDeclarations`: extensions.go:85-117. -/
def parseDeclarations : P (List Declaration × Option Comment) := do
  next
  let t ← tok
  if t ≠ .leftSquare then
    unNext
    return ([], none)
  else
    let inlineLeftSquare ← parseInlineComment
    let n ← bound
    let declarations ← declarationsLoop n []
    return (declarations, inlineLeftSquare)

/-- `ParseExtensions`: extensions.go:50-78. -/
def parseExtensions : P Extensions := do
  expect nextKeyword .kExtensions "extensions"
  let startPos ← position
  let ranges ← parseRanges
  let (declarations, inlineLeftSquare) ← parseDeclarations
  expect next .semicolon ";"
  let lastPos ← position
  return { ranges, declarations, inlineCommentBehindLeftSquare := inlineLeftSquare,
           info := { pos := startPos.p, lastPos := lastPos.p } }

/-! ## Bodies -/

/-- What the body parsers return besides the error: the statements, the comment behind the left
curly and the last position. -/
abbrev Body := List Visitee × Option Comment × SPos

/-- `for _, comment := range comments { stmts = append(stmts, Visitee(comment)) }` under the
configuration flag: proto.go:96-100, message.go:147-151, enum.go:169-173, extend.go:145-149,
service.go:169-173. -/
def bodyComments (cfg : Cfg) (comments : List Comment) : List Visitee :=
  if cfg.bodyIncludingComments then comments.map .comment else []

/-- Recovery after a failed field: `p.lex.UnNext(); emptyErr := p.lex.ReadEmptyStatement(); ..`:
message.go:230, 239-251, enum.go:207-218, extend.go:168-179. -/
def recoverEmpty (ferr : Err) : P Visitee := do
  unNext
  match ← M.attempt readEmptyStatement with
  | .ok _ => return .emptyStatement {}
  | .error emptyErr => M.throw (.pair ferr emptyErr)

/-- The end of a body, on a right curly: message.go:146-162, enum.go:168-184, extend.go:144-160,
service.go:168-184. -/
def closeBody (cfg : Cfg) (comments : List Comment) (stmts : List Visitee)
    (inlineLeftCurly : Option Comment) : P Body := do
  next
  let lastPos ← blockLastPos cfg
  return (stmts ++ bodyComments cfg comments, inlineLeftCurly, lastPos)

/-! ## enum.go -/

/-- `parseEnumValueOptions`: enum.go:272-306. -/
def parseEnumValueOptions (cfg : Cfg) : P (List FieldOption) := do
  next
  let t ← tok
  if t ≠ .leftSquare then
    unNext
    return []
  else
    let opt ← orUnexpected (parseFieldOption cfg) "enumValueOption"
    let n ← bound
    let opts ← fieldOptionsLoop cfg "enumValueOption" n [opt]
    expect next .rightSquare "]"
    return opts

/-- The optional sign of an enum value: enum.go:241-245. -/
def parseSign : P Str := do
  consumeToken .minus
  let t ← tok
  if t = .minus then
    return c!"-"
  else
    return []

/-- `parseEnumField`: enum.go:228-269. -/
def parseEnumField (cfg : Cfg) : P EnumField := do
  expect next .ident "ident"
  let startPos ← position
  let ident ← txt
  expect next .equals "="
  let sign ← parseSign
  expect nextNumberLit .intLit "intLit"
  let x ← txt
  let enumValueOptions ← parseEnumValueOptions cfg
  expect next .semicolon ";"
  let lastPos ← position
  return { ident, number := sign ++ x, enumValueOptions,
           info := { pos := startPos.p, lastPos := lastPos.p } }

/-- The statement switch of `parseEnumBody`, except for the closing case: enum.go:185-219. -/
def enumStmt (cfg : Cfg) (comments : List Comment) (token : Token) : P Visitee := do
  if token = .kOption then
    let option ← parseOption cfg
    return .option { option with comments }
  else if token = .kReserved then
    let reserved ← parseReserved
    return .reserved { reserved with comments }
  else
    match ← M.attempt (parseEnumField cfg) with
    | .ok enumField => return .enumField { enumField with comments }
    | .error e => recoverEmpty e

/-- The loop of `parseEnumBody`: enum.go:155-223. -/
def enumLoop (cfg : Cfg) (inlineLeftCurly : Option Comment) : Nat → List Visitee → P Body
  | 0, _ => M.stop .fuel
  | n + 1, stmts => do
    let comments ← parseComments
    let token ← peekKeyword
    if token = .rightCurly then
      closeBody cfg comments stmts inlineLeftCurly
    else
      let stmt ← enumStmt cfg comments token
      let stmt ← maybeScanInlineComment stmt
      enumLoop cfg inlineLeftCurly n (stmts ++ [stmt])

/-- `parseEnumBody`: enum.go:140-224. -/
def parseEnumBody (cfg : Cfg) : P Body := do
  expect next .leftCurly "{"
  let inlineLeftCurly ← parseInlineComment
  let n ← bound
  enumLoop cfg inlineLeftCurly n []

/-- `ParseEnum`: enum.go:109-136. -/
def parseEnum (cfg : Cfg) : P Enum := do
  expect nextKeyword .kEnum "enum"
  let startPos ← position
  expect next .ident "enumName"
  let enumName ← txt
  let (enumBody, inlineLeftCurly, lastPos) ← parseEnumBody cfg
  return { enumName, enumBody, inlineCommentBehindLeftCurly := inlineLeftCurly,
           info := { pos := startPos.p, lastPos := lastPos.p } }

/-! ## extend.go -/

/-- The default case of the statement switch of `parseExtendBody`: extend.go:161-180. -/
def extendStmt (cfg : Cfg) (comments : List Comment) : P Visitee := do
  match ← M.attempt (parseField cfg) with
  | .ok field => return .field { field with comments }
  | .error e => recoverEmpty e

/-- The loop of `parseExtendBody`: extend.go:131-184. -/
def extendLoop (cfg : Cfg) (inlineLeftCurly : Option Comment) : Nat → List Visitee → P Body
  | 0, _ => M.stop .fuel
  | n + 1, stmts => do
    let comments ← parseComments
    let token ← peekKeyword
    if token = .rightCurly then
      closeBody cfg comments stmts inlineLeftCurly
    else
      let stmt ← extendStmt cfg comments
      let stmt ← maybeScanInlineComment stmt
      extendLoop cfg inlineLeftCurly n (stmts ++ [stmt])

/-- `parseExtendBody`: extend.go:99-185.  An empty body drops the comment behind the left curly. -/
def parseExtendBody (cfg : Cfg) : P Body := do
  expect next .leftCurly "{"
  let inlineLeftCurly ← parseInlineComment
  next
  let t ← tok
  if t = .rightCurly then
    let lastPos ← blockLastPos cfg
    return ([], none, lastPos)
  else
    unNext
    let n ← bound
    extendLoop cfg inlineLeftCurly n []

/-- `ParseExtend`: extend.go:70-96. -/
def parseExtend (cfg : Cfg) : P Extend := do
  expect nextKeyword .kExtend "extend"
  let startPos ← position
  let (messageType, _) ← readMessageType
  let (extendBody, inlineLeftCurly, lastPos) ← parseExtendBody cfg
  return { messageType, extendBody, inlineCommentBehindLeftCurly := inlineLeftCurly,
           info := { pos := startPos.p, lastPos := lastPos.p } }

/-! ## groupField.go -/

/-- `p.lex.RawText`. -/
def rawText : P Str := fun l => .ok l.rawText l

/-- The part of `peekIsGroup` after the field number: groupField.go:163-168. -/
def peekGroupCurly : P Bool := do
  next
  let r ← rawText
  let t ← tok
  unNextTo r
  return decide (t = .leftCurly)

/-- groupField.go:157-168. -/
def peekGroupNumber : P Bool := do
  let e ← M.attempt parseFieldNumber
  let r ← rawText
  match e with
  | .error _ =>
    unNextTo r
    return false
  | .ok _ =>
    let b ← peekGroupCurly
    unNextTo r
    return b

/-- groupField.go:151-168. -/
def peekGroupEquals : P Bool := do
  next
  let r ← rawText
  let t ← tok
  if t ≠ .equals then
    unNextTo r
    return false
  else
    let b ← peekGroupNumber
    unNextTo r
    return b

/-- groupField.go:142-168. -/
def peekGroupName : P Bool := do
  next
  let r ← rawText
  let t ← tok
  let x ← txt
  if t ≠ .ident then
    unNextTo r
    return false
  else if !isCapitalized x then
    unNextTo r
    return false
  else
    let b ← peekGroupEquals
    unNextTo r
    return b

/-- groupField.go:136-168. -/
def peekGroupKeyword : P Bool := do
  nextKeyword
  let r ← rawText
  let t ← tok
  if t ≠ .kGroup then
    unNextTo r
    return false
  else
    let b ← peekGroupName
    unNextTo r
    return b

/-- `peekIsGroup`: groupField.go:125-169.  The deferred `UnNextTo` calls, whose arguments are
evaluated at the `defer`, run in reverse order on return; each of the helpers above and this
function runs its own. -/
def peekIsGroup : P Bool := do
  nextKeyword
  let t ← tok
  if t = .kRepeated ∨ t = .kRequired ∨ t = .kOptional then
    let r ← rawText
    let b ← peekGroupKeyword
    unNextTo r
    return b
  else
    unNext
    peekGroupKeyword

/-- The text expected instead of a group name: groupField.go:90.  The name is an identifier, so that `%q` only puts
it between quotes. -/
def groupNameText (name : Str) : String :=
  String.ofList (c!"groupName \"" ++ name ++ c!"\" must begin with capital letter.")

/-- `ParseGroupField`: groupField.go:63-123; `body` is `parseMessageBody`. -/
def parseGroupFieldWith (body : P Body) : P GroupField := do
  nextKeyword
  let startPos ← position
  let label ← parseLabel
  expect nextKeyword .kGroup "group"
  expect next .ident "groupName"
  let groupName ← txt
  if !isCapitalized groupName then
    unexpected (groupNameText groupName)
  else
    expect next .equals "="
    let fieldNumber ← orUnexpected parseFieldNumber "fieldNumber"
    let (messageBody, inlineLeftCurly, lastPos) ← body
    return { isRepeated := label.isRepeated, isRequired := label.isRequired,
             isOptional := label.isOptional, groupName, fieldNumber, messageBody,
             inlineCommentBehindLeftCurly := inlineLeftCurly,
             info := { pos := startPos.p, lastPos := lastPos.p } }

/-! ## message.go -/

/-- `ParseMessage`: message.go:70-97; `body` is `parseMessageBody`. -/
def parseMessageWith (body : P Body) : P Message := do
  expect nextKeyword .kMessage "message"
  let startPos ← position
  expect next .ident "messageName"
  let messageName ← txt
  let (messageBody, inlineLeftCurly, lastPos) ← body
  return { messageName, messageBody, inlineCommentBehindLeftCurly := inlineLeftCurly,
           info := { pos := startPos.p, lastPos := lastPos.p } }

/-- The default case of the statement switch of `parseMessageBody`: message.go:219-252. -/
def fieldStmt (cfg : Cfg) (body : P Body) (comments : List Comment) : P Visitee := do
  let isGroup ← peekIsGroup
  if isGroup then
    match ← M.attempt (parseGroupFieldWith body) with
    | .ok groupField => return .groupField { groupField with comments }
    | .error e => recoverEmpty e
  else
    match ← M.attempt (parseField cfg) with
    | .ok field => return .field { field with comments }
    | .error e => recoverEmpty e

/-- The statement switch of `parseMessageBody`, except for the closing case: message.go:163-252. -/
def messageStmt (cfg : Cfg) (body : P Body) (comments : List Comment) (token : Token) :
    P Visitee := do
  match token with
  | .kEnum =>
    let x ← parseEnum cfg
    return .enum { x with comments }
  | .kMessage =>
    let x ← parseMessageWith body
    return .message { x with comments }
  | .kOption =>
    let x ← parseOption cfg
    return .option { x with comments }
  | .kOneof =>
    let x ← parseOneof cfg
    return .oneof { x with comments }
  | .kMap =>
    let x ← parseMapField cfg
    return .mapField { x with comments }
  | .kExtend =>
    let x ← parseExtend cfg
    return .extend { x with comments }
  | .kReserved =>
    let x ← parseReserved
    return .reserved { x with comments }
  | .kExtensions =>
    let x ← parseExtensions
    return .extensions { x with comments }
  | _ => fieldStmt cfg body comments

/-- The loop of `parseMessageBody`: message.go:133-256. -/
def messageLoop (cfg : Cfg) (body : P Body) (inlineLeftCurly : Option Comment) :
    Nat → List Visitee → P Body
  | 0, _ => M.stop .fuel
  | n + 1, stmts => do
    let comments ← parseComments
    let token ← peekKeyword
    if token = .rightCurly then
      closeBody cfg comments stmts inlineLeftCurly
    else
      let stmt ← messageStmt cfg body comments token
      let stmt ← maybeScanInlineComment stmt
      messageLoop cfg body inlineLeftCurly n (stmts ++ [stmt])

/-- `parseMessageBody`, given the one used for nested messages and groups: message.go:101-257. -/
def messageBodyWith (cfg : Cfg) (body : P Body) : P Body := do
  expect next .leftCurly "{"
  let inlineLeftCurly ← parseInlineComment
  next
  let t ← tok
  if t = .rightCurly then
    let lastPos ← blockLastPos cfg
    return ([], none, lastPos)
  else
    unNext
    messageLoop cfg body inlineLeftCurly cfg.fuel []

/-- `parseMessageBody` with a bound on the nesting depth: message.go:101-257. -/
def messageBody (cfg : Cfg) : Nat → P Body
  | 0 => M.stop .fuel
  | d + 1 => messageBodyWith cfg (messageBody cfg d)

/-- `ParseMessage`: message.go:70-97. -/
def parseMessage (cfg : Cfg) : P Message := parseMessageWith (messageBody cfg cfg.fuel)

/-- `ParseGroupField`: groupField.go:63-123. -/
def parseGroupField (cfg : Cfg) : P GroupField := parseGroupFieldWith (messageBody cfg cfg.fuel)

/-! ## service.go -/

/-- `parseRPCRequest`: service.go:285-314, and `parseRPCResponse`: service.go:318-347 (the same
code). -/
def parseRPCMessage : P RPCMessage := do
  expect next .leftParen "("
  let startPos ← position
  nextKeyword
  let t ← tok
  if t ≠ .kStream then
    unNext
    let (messageType, _) ← readMessageType
    expect next .rightParen ")"
    let lastPos ← position
    return { isStream := false, messageType, info := { pos := startPos.p, lastPos := lastPos.p } }
  else
    let (messageType, _) ← readMessageType
    expect next .rightParen ")"
    let lastPos ← position
    return { isStream := true, messageType, info := { pos := startPos.p, lastPos := lastPos.p } }

/-- The switch of `parseRPCOptions`: service.go:361-380; returns the options to append. -/
def rpcOptionsStmt (cfg : Cfg) : P (List OptionStmt) := do
  let token ← peekKeyword
  if token = .kOption then
    let option ← parseOption cfg
    return [option]
  else if token = .rightCurly then
    return []
  else
    readEmptyStatement
    return []

/-- The loop of `parseRPCOptions`: service.go:360-387. -/
def rpcOptionsLoop (cfg : Cfg) : Nat → List OptionStmt → P (List OptionStmt)
  | 0, _ => M.stop .fuel
  | n + 1, options => do
    let opts ← rpcOptionsStmt cfg
    next
    let t ← tok
    if t = .rightCurly then
      return options ++ opts
    else
      unNext
      rpcOptionsLoop cfg n (options ++ opts)

/-- `parseRPCOptions`: service.go:351-388. -/
def parseRPCOptions (cfg : Cfg) : P (List OptionStmt × Option Comment) := do
  expect next .leftCurly "{"
  let inlineLeftCurly ← parseInlineComment
  let n ← bound
  let options ← rpcOptionsLoop cfg n []
  return (options, inlineLeftCurly)

/-- `parseRPC`: service.go:215-281. -/
def parseRPC (cfg : Cfg) : P RPC := do
  expect nextKeyword .kRpc "rpc"
  let startPos ← position
  expect next .ident "serviceName"
  let rpcName ← txt
  let rpcRequest ← parseRPCMessage
  expect nextKeyword .kReturns "returns"
  let rpcResponse ← parseRPCMessage
  next
  let lastPos ← position
  let embeddedComments ← findEmbeddedComments startPos lastPos
  let t ← tok
  if t = .leftCurly then
    unNext
    let (options, inlineLeftCurly) ← parseRPCOptions cfg
    let lastPos ← blockLastPos cfg
    return { rpcName, rpcRequest, rpcResponse, options,
             inlineCommentBehindLeftCurly := inlineLeftCurly, embeddedComments,
             info := { pos := startPos.p, lastPos := lastPos.p } }
  else if t = .semicolon then
    return { rpcName, rpcRequest, rpcResponse, options := [], embeddedComments,
             info := { pos := startPos.p, lastPos := lastPos.p } }
  else
    unexpected "{ or ;"

/-- The statement switch of `parseServiceBody`, except for the closing case: service.go:185-205. -/
def serviceStmt (cfg : Cfg) (comments : List Comment) (token : Token) : P Visitee := do
  if token = .kOption then
    let option ← parseOption cfg
    return .option { option with comments }
  else if token = .kRpc then
    let rpc ← parseRPC cfg
    return .rpc { rpc with comments }
  else
    readEmptyStatement
    return .emptyStatement {}

/-- The loop of `parseServiceBody`: service.go:155-209. -/
def serviceLoop (cfg : Cfg) (inlineLeftCurly : Option Comment) : Nat → List Visitee → P Body
  | 0, _ => M.stop .fuel
  | n + 1, stmts => do
    let comments ← parseComments
    let token ← peekKeyword
    if token = .rightCurly then
      closeBody cfg comments stmts inlineLeftCurly
    else
      let stmt ← serviceStmt cfg comments token
      let stmt ← maybeScanInlineComment stmt
      serviceLoop cfg inlineLeftCurly n (stmts ++ [stmt])

/-- `parseServiceBody`: service.go:141-210. -/
def parseServiceBody (cfg : Cfg) : P Body := do
  expect next .leftCurly "{"
  let inlineLeftCurly ← parseInlineComment
  let n ← bound
  serviceLoop cfg inlineLeftCurly n []

/-- `ParseService`: service.go:110-137. -/
def parseService (cfg : Cfg) : P Service := do
  expect nextKeyword .kService "service"
  let startPos ← position
  expect next .ident "serviceName"
  let serviceName ← txt
  let (serviceBody, inlineLeftCurly, lastPos) ← parseServiceBody cfg
  return { serviceName, serviceBody, inlineCommentBehindLeftCurly := inlineLeftCurly,
           info := { pos := startPos.p, lastPos := lastPos.p } }

/-! ## proto.go -/

/-- `parseBOM`: proto.go:78-84. -/
def parseBOM : P Unit := do
  next
  let t ← tok
  if t = .bom then
    return ()
  else
    unNext

/-- The statement switch of `parseProtoBody`: proto.go:113-169.  Returns what is appended at once
(an empty statement is) and `stmt`, which stays nil in the default case. -/
def protoStmt (cfg : Cfg) (comments : List Comment) (token : Token) :
    P (List Visitee × Visitee) := do
  match token with
  | .kImport =>
    let x ← parseImport
    return ([], .importStmt { x with comments })
  | .kPackage =>
    let x ← parsePackage
    return ([], .package { x with comments })
  | .kOption =>
    let x ← parseOption cfg
    return ([], .option { x with comments })
  | .kMessage =>
    let x ← parseMessage cfg
    return ([], .message { x with comments })
  | .kEnum =>
    let x ← parseEnum cfg
    return ([], .enum { x with comments })
  | .kService =>
    let x ← parseService cfg
    return ([], .service { x with comments })
  | .kExtend =>
    let x ← parseExtend cfg
    return ([], .extend { x with comments })
  | _ =>
    readEmptyStatement
    return ([.emptyStatement {}], .nil)

/-- The loop of `parseProtoBody`: proto.go:92-173. -/
def protoLoop (cfg : Cfg) : Nat → List Visitee → P (List Visitee)
  | 0, _ => M.stop .fuel
  | n + 1, protoBody => do
    let comments ← parseComments
    if ← isEOF then
      return protoBody ++ bodyComments cfg comments
    else
      let token ← peekKeyword
      let (now, stmt) ← protoStmt cfg comments token
      let stmt ← maybeScanInlineComment stmt
      protoLoop cfg n (protoBody ++ now ++ [stmt])

/-- `parseProtoBody`: proto.go:89-174. -/
def parseProtoBody (cfg : Cfg) : P (List Visitee) := protoLoop cfg cfg.fuel []

/-- The syntax statement with its comments: proto.go:43-51. -/
def syntaxPart (comments : List Comment) : P (Option Syntax) := do
  match ← parseSyntax with
  | none => return none
  | some s =>
    let inlineComment ← parseInlineComment
    return some { s with comments, inlineComment }

/-- The edition statement with its comments: proto.go:53-60. -/
def editionPart (comments : List Comment) : P (Option Edition) := do
  match ← parseEdition with
  | none => return none
  | some e =>
    let inlineComment ← parseInlineComment
    return some { e with comments, inlineComment }

/-- `ParseProto`: proto.go:40-75. -/
def parseProto (cfg : Cfg) : P Proto := do
  parseBOM
  let comments ← parseComments
  let syntax_ ← syntaxPart comments
  let edition ← editionPart comments
  let protoBody ← parseProtoBody cfg
  let pos ← position
  return { syntax_, edition, protoBody, metaFilename := pos.p.filename }

end Parser

end Verif
