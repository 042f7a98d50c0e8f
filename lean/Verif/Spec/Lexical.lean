import Verif.Model.Basic

/-!
# Specification of the lexical level

Definitions that do not refer to the model: positions, white space, comments, words and the literals
of the protobuf language specification.
-/

namespace Verif.Spec

/-! ## Positions -/

/-- The number of bytes of the UTF-8 encoding of a rune. -/
def utf8Len (c : Char) : Nat :=
  if c.toNat < 0x80 then 1 else if c.toNat < 0x800 then 2 else if c.toNat < 0x10000 then 3 else 4

/-- The number of bytes of a text. -/
def bytes (t : Str) : Nat := (t.map utf8Len).sum

/-- The line on which the rune after the text `t` stands. -/
def line (t : Str) : Nat := 1 + t.count '\n'

/-- The part of a text after its last newline. -/
def lastLine (t : Str) : Str := (t.reverse.takeWhile (· ≠ '\n')).reverse

/-- The column at which the rune after the text `t` stands. -/
def column (t : Str) : Nat := 1 + (lastLine t).length

/-! ## Runes -/

/-- The code points with the Unicode property `White_Space`. -/
def whiteSpace : List Nat :=
  [0x09, 0x0A, 0x0B, 0x0C, 0x0D, 0x20, 0x85, 0xA0, 0x1680, 0x2000, 0x2001, 0x2002, 0x2003, 0x2004,
   0x2005, 0x2006, 0x2007, 0x2008, 0x2009, 0x200A, 0x2028, 0x2029, 0x202F, 0x205F, 0x3000]

/-- White space. -/
def White (c : Char) : Prop := c.toNat ∈ whiteSpace

def letters : Str := c!"abcdefghijklmnopqrstuvwxyzABCDEFGHIJKLMNOPQRSTUVWXYZ"
def octals : Str := c!"01234567"
def decimals : Str := c!"0123456789"
def hexes : Str := c!"0123456789abcdefABCDEF"

/-- A rune that can start a word. -/
def WordStart (c : Char) : Prop := c ∈ letters ∨ c = '_'

/-- A rune that can continue a word. -/
def WordChar (c : Char) : Prop := c ∈ letters ∨ c ∈ decimals ∨ c = '_'

/-- All runes of a text are in a list. -/
def Over (l : Str) (t : Str) : Prop := ∀ c ∈ t, c ∈ l

/-- A text does not start with one of the given runes. -/
def NotNext (p : Char → Prop) (t : Str) : Prop := ∀ c, t.head? = some c → ¬ p c

/-- An identifier-like word. -/
inductive Word : Str → Prop
  | mk (c : Char) (w : Str) : WordStart c → (∀ d ∈ w, WordChar d) → Word (c :: w)

/-! ## Comments and gaps -/

/-- `b` does not contain `*/`, nor does the `*/` that follows it begin earlier. -/
def FirstEnd (b : Str) : Prop := ∀ x y, b ++ ['*', '/'] = x ++ ['*', '/'] ++ y → y = []

/-- `Comment rest raw text`: before the text `rest`, the source `raw` is a comment whose text is
`text`; they differ by the newline that ends a line comment. -/
inductive Comment (rest : Str) : Str → Str → Prop
  | line (b : Str) : '\n' ∉ b → Comment rest (['/', '/'] ++ b ++ ['\n']) (['/', '/'] ++ b)
  | last (b : Str) : '\n' ∉ b → rest = [] → Comment rest (['/', '/'] ++ b) (['/', '/'] ++ b)
  | block (b : Str) : FirstEnd b →
      Comment rest (['/', '*'] ++ b ++ ['*', '/']) (['/', '*'] ++ b ++ ['*', '/'])

/-- `Gap com rest g cs`: before the text `rest`, the text `g` is white space and, if `com`, comments;
`cs` are these comments with the part of `g` before them. -/
inductive Gap (com : Bool) (rest : Str) : Str → List (Str × Str) → Prop
  | nil : Gap com rest [] []
  | space (c : Char) (g : Str) (cs : List (Str × Str)) : White c → Gap com rest g cs →
      Gap com rest (c :: g) (cs.map (fun p => (c :: p.1, p.2)))
  | comment (raw text g : Str) (cs : List (Str × Str)) : com = true →
      Comment (g ++ rest) raw text → Gap com rest g cs →
      Gap com rest (raw ++ g) (([], text) :: cs.map (fun p => (raw ++ p.1, p.2)))

/-! ## Numbers -/

/-- `decimals = decimalDigit { decimalDigit }` -/
def Decimals (w : Str) : Prop := w ≠ [] ∧ Over decimals w

/-- `intLit = decimalLit | octalLit | hexLit` -/
inductive IntLit : Str → Prop
  | decimal (c : Char) (w : Str) : c ∈ decimals → c ≠ '0' → Over decimals w → IntLit (c :: w)
  | octal (w : Str) : Over octals w → IntLit ('0' :: w)
  | hex (x : Char) (w : Str) : x = 'x' ∨ x = 'X' → w ≠ [] → Over hexes w → IntLit ('0' :: x :: w)

/-- `exponent = ( "e" | "E" ) [ "+" | "-" ] decimals` -/
inductive Exponent : Str → Prop
  | plain (e : Char) (d : Str) : e = 'e' ∨ e = 'E' → Decimals d → Exponent (e :: d)
  | signed (e s : Char) (d : Str) : e = 'e' ∨ e = 'E' → s = '+' ∨ s = '-' → Decimals d →
      Exponent (e :: s :: d)

/-- `[ exponent ]` -/
def OptExponent (w : Str) : Prop := w = [] ∨ Exponent w

/-- `floatLit = ( decimals "." [ decimals ] [ exponent ] | decimals exponent |
"." decimals [ exponent ] ) | "inf" | "nan"` -/
inductive FloatLit : Str → Prop
  | full (d f e : Str) : Decimals d → Over decimals f → OptExponent e → FloatLit (d ++ '.' :: f ++ e)
  | exp (d e : Str) : Decimals d → Exponent e → FloatLit (d ++ e)
  | frac (f e : Str) : Decimals f → OptExponent e → FloatLit ('.' :: f ++ e)
  | inf : FloatLit ['i', 'n', 'f']
  | nan : FloatLit ['n', 'a', 'n']

/-- The runes that can continue a number. -/
def numNext (c : Char) : Prop :=
  c ∈ decimals ∨ c = '.' ∨ c = 'e' ∨ c = 'E' ∨ c = 'x' ∨ c = 'X'

/-- The runes that can continue the fraction or exponent of a float. -/
def fracNext (c : Char) : Prop := c ∈ decimals ∨ c = 'e' ∨ c = 'E'

/-- A literal whose integer part has a superfluous leading zero. -/
def LeadingZero (w : Str) : Prop := ∃ c w', w = '0' :: c :: w' ∧ c ∈ decimals

/-! ## Strings -/

def charEscapes : Str := ['a', 'b', 'f', 'n', 'r', 't', 'v', '\\', '\'', '"']

/-- `charValue` of a literal quoted by `q`: a plain rune, or an escape. -/
inductive CharValue (q : Char) : Str → Prop
  | plain (c : Char) : c ≠ q → c ≠ '\n' → c ≠ '\\' → CharValue q [c]
  | hex (x a b : Char) : x = 'x' ∨ x = 'X' → a ∈ hexes → b ∈ hexes → CharValue q ['\\', x, a, b]
  | octal (a b c : Char) : a ∈ octals → b ∈ octals → c ∈ octals → CharValue q ['\\', a, b, c]
  | char (c : Char) : c ∈ charEscapes → CharValue q ['\\', c]

/-- The contents of a string literal of the language quoted by `q`. -/
inductive CharValues (q : Char) : Str → Prop
  | nil : CharValues q []
  | cons (v w : Str) : CharValue q v → CharValues q w → CharValues q (v ++ w)

/-- What the contents of a scanned literal look like: like `CharValues`, but a backslash that starts
none of the escapes stands for itself. -/
inductive LooseValues (q : Char) : Str → Prop
  | nil : LooseValues q []
  | plain (c : Char) (w : Str) : c ≠ q → c ≠ '\n' → c ≠ '\\' → LooseValues q w → LooseValues q (c :: w)
  | escape (c : Char) (w : Str) : c ∈ charEscapes → LooseValues q w → LooseValues q ('\\' :: c :: w)
  | stray (w : Str) : NotNext (· ∈ charEscapes) w → w ≠ [] → LooseValues q w →
      LooseValues q ('\\' :: w)

/-- `strLit`: contents between two equal quotes. -/
def StrLit (w : Str) : Prop :=
  ∃ q b, (q = '\'' ∨ q = '"') ∧ LooseValues q b ∧ w = q :: b ++ [q]

end Verif.Spec
