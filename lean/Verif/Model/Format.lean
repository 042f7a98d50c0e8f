import Verif.Model.Error

/-!
# The texts of positions and errors

Models `parser/meta/position.go:20-27` (`String`), `lexer/scanner/position.go:30-32`,
`parser/meta/error.go:15-20` (`Error`), the formatted `Found` of `parser/error.go:15`,
`lexer/error.go:13` and `lexer/scanner/error.go:14`, and the `Error` methods of the pairs of errors.

From the Go standard library: `%d` of an `int`, `%q` of a string (`strconv.Quote`), `%s`, `%v`.
Which runes are printable (`unicode.IsPrint`) is a parameter.  Where in the Go source an error was
raised (`runtime.Caller`) is not a function of the model's values: the texts are a relation.
-/

namespace Verif

/-- `%d` of an `int`, or `%v` of a `Token`. -/
def itoa (n : Int) : Str :=
  if n < 0 then '-' :: Nat.toDigits 10 n.natAbs else Nat.toDigits 10 n.natAbs

/-- `(Position).String`: parser/meta/position.go:20-27. -/
def Position.string (p : Position) : Str :=
  (if p.filename = [] then c!"<input>" else p.filename) ++ c!":" ++ itoa p.line ++ c!":" ++ itoa p.column

/-- `n` as `k` hexadecimal digits. -/
def hex : Nat → Nat → Str
  | 0, _ => []
  | k + 1, n => hex k (n / 16) ++ [Nat.digitChar (n % 16)]

/-- `appendEscapedRune` with a double quote: Go's strconv/quote.go. -/
def escape (isPrint : Char → Bool) (c : Char) : Str :=
  if c = '"' ∨ c = '\\' then ['\\', c]
  else if isPrint c then [c]
  else if c = Char.ofNat 7 then ['\\', 'a']
  else if c = Char.ofNat 8 then ['\\', 'b']
  else if c = Char.ofNat 12 then ['\\', 'f']
  else if c = '\n' then ['\\', 'n']
  else if c = '\r' then ['\\', 'r']
  else if c = '\t' then ['\\', 't']
  else if c = Char.ofNat 11 then ['\\', 'v']
  else if c.toNat < 32 ∨ c.toNat = 127 then '\\' :: 'x' :: hex 2 c.toNat
  else if c.toNat < 0x10000 then '\\' :: 'u' :: hex 4 c.toNat
  else '\\' :: 'U' :: hex 8 c.toNat

/-- `%q` of a string: `strconv.Quote`. -/
def quoted (isPrint : Char → Bool) (s : Str) : Str := '"' :: (s.flatMap (escape isPrint) ++ ['"'])

/-- The field `Found` of an error: lexer/scanner/error.go:14 (`string(found)`), lexer/error.go:13
(`lex.Text`), parser/error.go:15. -/
def Found.string (isPrint : Char → Bool) : Found → Str
  | .rune r => [r]
  | .text t => t
  | .token t tok pos =>
    quoted isPrint t ++ (c!"(Token=" ++ (itoa tok.ctorIdx ++ (c!", Pos=" ++ (pos.string ++ c!")"))))

/-- `(*Error).Error`: parser/meta/error.go:15-20. -/
def errorText (isPrint : Char → Bool) (found expected occuredIn : Str) (occuredAt : Int) : Str :=
  if occuredAt = 0 ∧ occuredIn = [] then
    c!"found " ++ (quoted isPrint found ++ (c!" but expected [" ++ (expected ++ c!"]")))
  else
    c!"found " ++ (quoted isPrint found ++
      (c!" but expected [" ++ (expected ++ (c!"] at " ++ (occuredIn ++ (c!":" ++ itoa occuredAt))))))

/-- The places in the Go source that an error can carry: `runtime.Caller` gives a line, which is positive, at
lexer/scanner/error.go:10-16 and parser/error.go:11-17; lexer/error.go:15-18 asks for it in debug mode only. -/
def Raised (debug : Bool) : Found → Str → Int → Prop
  | .text _, occuredIn, occuredAt => if debug then 0 < occuredAt else occuredIn = [] ∧ occuredAt = 0
  | _, _, occuredAt => 0 < occuredAt

/-- `Error` gives the text, for some place in the Go source: parser/meta/error.go:15-20,
reserved.go:15-17, enum.go:15-21, message.go:15-21, extend.go:15-21.  `debug` is the option of that name. -/
inductive ErrText (isPrint : Char → Bool) (debug : Bool) : Err → Str → Prop
  | single (pos : Position) (expected : String) (found : Found) (occuredIn : Str) (occuredAt : Int) :
      Raised debug found occuredIn occuredAt →
      ErrText isPrint debug (.single pos expected found)
        (errorText isPrint (found.string isPrint) expected.toList occuredIn occuredAt)
  | pair (a b : Err) (s t : Str) : ErrText isPrint debug a s → ErrText isPrint debug b t →
      ErrText isPrint debug (.pair a b) (s ++ (c!":" ++ t))

end Verif
