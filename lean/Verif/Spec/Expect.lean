import Verif.Spec.Lexical
import Verif.Model.Error

/-!
# Specification of what errors say they expected

The text of an error is `found X but expected [Y]`.  `kinds` lists the texts `Y` with what they describe;
an error is refuted by its own text if `X` is what `Y` describes.
-/

namespace Verif.Spec

/-- What is described as expected. -/
inductive Kind
  /-- one of some texts -/
  | texts (ws : List Str)
  /-- a word, or one of some texts -/
  | word (ws : List Str)
  /-- an integer literal, or one of some texts -/
  | int (ws : List Str)
  /-- a string literal -/
  | str
  /-- a string literal or a word -/
  | strOrWord
  /-- an integer or float literal -/
  | number
  /-- a constant, by its first token: a string literal, a number, a word or a sign -/
  | constant
  /-- something longer than one token: its first token says nothing -/
  | phrase
  deriving DecidableEq

def Kind.Has : Kind → Str → Prop
  | .texts ws, x => x ∈ ws
  | .word ws, x => Word x ∨ x ∈ ws
  | .int ws, x => IntLit x ∨ x ∈ ws
  | .str, x => StrLit x
  | .strOrWord, x => StrLit x ∨ Word x
  | .number, x => IntLit x ∨ FloatLit x
  | .constant, x => StrLit x ∨ IntLit x ∨ FloatLit x ∨ Word x ∨ x = c!"-" ∨ x = c!"+"
  | .phrase, _ => False

/-- The text expected instead of a key of a declaration. -/
def declKeys : String := "number, full_name, type, repeated, reserved, or }"

/-- The text expected behind a declaration. -/
def declEnd : String := ", or ]"

/-- The texts of what is expected. -/
def kinds : List (String × Kind) :=
  [("=", .texts [c!"="]), (";", .texts [c!";"]), (":", .texts [c!":"]), (",", .texts [c!","]),
   ("(", .texts [c!"("]), (")", .texts [c!")"]), ("{", .texts [c!"{"]), ("]", .texts [c!"]"]),
   ("<", .texts [c!"<"]), (">", .texts [c!">"]), ("{ or :", .texts [c!"{", c!":"]),
   ("{ or ;", .texts [c!"{", c!";"]), (declEnd, .texts [c!",", c!"]"]),
   ("quote", .texts [['\''], ['"']]), ("proto3 or proto2", .texts [c!"proto3", c!"proto2"]),
   ("package", .texts [c!"package"]), ("\"import\"", .texts [c!"import"]), ("option", .texts [c!"option"]),
   ("map", .texts [c!"map"]), ("oneof", .texts [c!"oneof"]), ("reserved", .texts [c!"reserved"]),
   ("declaration", .texts [c!"declaration"]), ("extensions", .texts [c!"extensions"]),
   ("enum", .texts [c!"enum"]), ("extend", .texts [c!"extend"]), ("group", .texts [c!"group"]),
   ("message", .texts [c!"message"]), ("rpc", .texts [c!"rpc"]), ("returns", .texts [c!"returns"]),
   ("service", .texts [c!"service"]),
   (declKeys, .texts [c!"number", c!"full_name", c!"type", c!"repeated", c!"reserved", c!"}"]),
   ("keyType constant", .texts [c!"int32", c!"int64", c!"uint32", c!"uint64", c!"sint32", c!"sint64",
     c!"fixed32", c!"fixed64", c!"sfixed32", c!"sfixed64", c!"bool", c!"string"]),
   ("ident", .word []), ("TIDENT", .word []), ("fullIdent", .word []), ("type", .word []),
   ("fieldName", .word []), ("mapName", .word []), ("oneofName", .word []), ("enumName", .word []),
   ("groupName", .word []), ("messageName", .word []), ("serviceName", .word []),
   ("repeated bool", .word []), ("reserved bool", .word []),
   ("ident or left paren", .word [c!"("]), ("ident or bracedFullIdent", .word [c!"("]),
   ("intLit", .int []), ("number", .int []), ("fieldNumber", .int []), ("\"intLit | \"max\"", .int [c!"max"]),
   ("strLit", .str), ("full_name string", .str), ("type string", .str), ("quotedFieldName", .str),
   ("fieldName or quotedFieldName", .strOrWord), ("TINTLIT or TFLOATLIT", .number),
   ("constant", .constant), ("constant or permissive mode", .constant),
   ("optionConstant", .phrase), ("fieldOption", .phrase), ("enumValueOption", .phrase)]

/-- The text found, as far as it is a token. -/
def foundText : Found → Option Str
  | .rune _ => none
  | .text x => some x
  | .token x _ _ => some x

/-- The text about the name of a group. -/
def groupText (x : Str) : String :=
  String.ofList (c!"groupName \"" ++ x ++ c!"\" must begin with capital letter.")

/-- What was expected was not found; the text about the name of a group quotes the name. -/
inductive Missing (expected : String) (x : Str) : Prop
  | mk (k : Kind) : (expected, k) ∈ kinds → ¬ k.Has x → Missing expected x
  | group : expected = groupText x → Word x → (∀ c ∈ x.head?, c ∉ c!"ABCDEFGHIJKLMNOPQRSTUVWXYZ") → Missing expected x

/-- One fault of an error: what was expected was not found, except in two places. -/
def Fault (expected : String) (x : Str) : Prop :=
  Missing expected x ∨ expected = declEnd ∨ expected = declKeys ∧ x = c!"}"

/-- `A` holds for all faults of an error. -/
inductive Faults (A : String → Str → Prop) : Err → Prop
  | single (pos : Position) (expected : String) (found : Found) (x : Str) : foundText found = some x →
      A expected x → Faults A (.single pos expected found)
  | pair (a b : Err) : Faults A a → Faults A b → Faults A (.pair a b)

/-- The end of the text, as a rune. -/
def endRune : Char := Char.ofNat 0

/-- The fault of an error of a scan that has consumed `read` and left `rest`: the rune that was found stands
next, or, for a slash that starts no comment, has just been read. -/
inductive ScanFault (read rest : Str) : String → Char → Prop
  | slash (a : Str) (r : Char) : read = a ++ ['/', r] → r ≠ '/' → r ≠ '*' → ScanFault read rest "/ or *" r
  | slashEnd (a : Str) : read = a ++ ['/'] → rest = [] → ScanFault read rest "/ or *" endRune
  | comment : rest = [] → ScanFault read rest "\n" endRune
  | digit (r : Char) : r = rest.headD endRune → r ∉ decimals → ScanFault read rest "decimalDigit" r
  | hex (r : Char) : r = rest.headD endRune → r ∉ hexes → ScanFault read rest "hexDigit" r
  | str (r : Char) : r = rest.headD endRune → r = endRune ∨ r = '\n' → ScanFault read rest "/[^\\0\\n\\\\]" r

end Verif.Spec
