import Verif.Model.Rune

/-!
# Tokens

Models `lexer/scanner/token.go` and `lexer/scanner/mode.go`.
-/

namespace Verif

/-- `scanner.Token`: token.go:4-69 (every constant, in source order). -/
inductive Token where
  | illegal | eof | ident | intLit | floatLit | boolLit | strLit | comment
  | semicolon | colon | equals | quote | leftParen | rightParen | leftCurly | rightCurly
  | leftSquare | rightSquare | less | greater | comma | dot | minus | bom
  | kSyntax | kEdition | kService | kRpc | kReturns | kMessage | kExtend | kImport | kPackage | kOption
  | kRepeated | kRequired | kOptional | kWeak | kPublic | kOneof | kMap | kReserved | kExtensions
  | kDeclaration | kNumber | kFullName | kType | kEnum | kStream | kGroup
  deriving DecidableEq, Repr

/-- `asMiscToken`: token.go:71-95. -/
def asMiscToken (ch : Char) : Token :=
  if ch = ';' then .semicolon
  else if ch = ':' then .colon
  else if ch = '=' then .equals
  else if ch = '"' then .quote
  else if ch = '\'' then .quote
  else if ch = '(' then .leftParen
  else if ch = ')' then .rightParen
  else if ch = '{' then .leftCurly
  else if ch = '}' then .rightCurly
  else if ch = '[' then .leftSquare
  else if ch = ']' then .rightSquare
  else if ch = '<' then .less
  else if ch = '>' then .greater
  else if ch = ',' then .comma
  else if ch = '.' then .dot
  else if ch = '-' then .minus
  else if ch = Char.ofNat 0xFEFF then .bom
  else .illegal

/-- The map literal of `asKeywordToken`: token.go:98-125. -/
def keywordTable : List (Str × Token) :=
  [ (c!"syntax", .kSyntax), (c!"edition", .kEdition), (c!"service", .kService), (c!"rpc", .kRpc),
    (c!"returns", .kReturns), (c!"message", .kMessage), (c!"extend", .kExtend),
    (c!"import", .kImport), (c!"package", .kPackage), (c!"option", .kOption),
    (c!"repeated", .kRepeated), (c!"required", .kRequired), (c!"optional", .kOptional),
    (c!"weak", .kWeak), (c!"public", .kPublic), (c!"oneof", .kOneof), (c!"map", .kMap),
    (c!"reserved", .kReserved), (c!"extensions", .kExtensions), (c!"number", .kNumber),
    (c!"full_name", .kFullName), (c!"type", .kType), (c!"declaration", .kDeclaration),
    (c!"enum", .kEnum), (c!"stream", .kStream), (c!"group", .kGroup) ]

/-- `asKeywordToken`: token.go:97-131. -/
def asKeywordToken (st : Str) : Token :=
  match keywordTable.find? (fun kv => kv.1 = st) with
  | some kv => kv.2
  | none => .illegal

/-- `scanner.Mode`: mode.go:4-15.  The bit set is modelled as one Boolean per bit that the scanner
tests; `ScanIdent` is never tested by the code and is left out. -/
structure Mode where
  number : Bool := false
  str : Bool := false
  bool : Bool := false
  keyword : Bool := false
  comment : Bool := false
  deriving DecidableEq, Repr

namespace Mode
/-- Mode 0, the mode of a plain `Lexer.Next`. -/
def plain : Mode := {}
/-- `ScanKeyword | ScanStrLit`: lexer.go:103-105. -/
def keywordOrStr : Mode := { keyword := true, str := true }
/-- `ScanKeyword`: lexer.go:108-110. -/
def kw : Mode := { keyword := true }
/-- `ScanStrLit`: lexer.go:113-115. -/
def strLit : Mode := { str := true }
/-- `ScanLit = ScanNumberLit | ScanStrLit | ScanBoolLit`: mode.go:14, lexer.go:118-120. -/
def lit : Mode := { number := true, str := true, bool := true }
/-- `ScanNumberLit`: lexer.go:123-125. -/
def numberLit : Mode := { number := true }
/-- `ScanComment`: lexer.go:128-130. -/
def commentMode : Mode := { comment := true }
end Mode

end Verif
