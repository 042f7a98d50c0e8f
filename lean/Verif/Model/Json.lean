import Verif.Model.Format

/-!
# JSON

From the Go standard library, encoding/json: the values that `Marshal` makes of structs, slices, strings, numbers,
booleans and nil, and the text that `MarshalIndent(v, "", "  ")` writes for them, as of Go 1.22.  (Before, `\b` and
`\f` were written as `\u0008` and `\u000c`.)  Used by `_example/dump/main.go`.
-/

namespace Verif

/-- A JSON value.  The fields of an object are in the order of the fields of the struct. -/
inductive Json where
  | null
  | bool (b : Bool)
  | num (n : Int)
  | str (s : Str)
  | arr (items : List Json)
  | obj (fields : List (Str × Json))

namespace Json

/-- `appendString` with `escapeHTML`: encode.go. -/
def escape (c : Char) : Str :=
  if c = '"' ∨ c = '\\' then ['\\', c]
  else if c = Char.ofNat 8 then ['\\', 'b']
  else if c = Char.ofNat 12 then ['\\', 'f']
  else if c = '\n' then ['\\', 'n']
  else if c = '\r' then ['\\', 'r']
  else if c = '\t' then ['\\', 't']
  else if c.toNat < 32 ∨ c = '<' ∨ c = '>' ∨ c = '&' ∨ c.toNat = 0x2028 ∨ c.toNat = 0x2029 then
    '\\' :: 'u' :: hex 4 c.toNat
  else [c]

/-- A string. -/
def quoted (s : Str) : Str := '"' :: (s.flatMap escape ++ ['"'])

/-- `appendNewline`: indent.go. -/
def newline (depth : Nat) : Str := '\n' :: List.replicate (2 * depth) ' '

mutual

/-- The text of a value at a depth: `appendIndent` (indent.go) on what `Marshal` writes. -/
def text (depth : Nat) : Json → Str
  | null => c!"null"
  | bool true => c!"true"
  | bool false => c!"false"
  | num n => itoa n
  | str s => quoted s
  | arr [] => c!"[]"
  | arr (x :: xs) => '[' :: (newline (depth + 1) ++ (text (depth + 1) x ++ itemsText depth xs))
  | obj [] => c!"{}"
  | obj (f :: fs) => '{' :: (newline (depth + 1) ++ (fieldText depth f ++ fieldsText depth fs))

/-- The items behind the first, and the end of the array. -/
def itemsText (depth : Nat) : List Json → Str
  | [] => newline depth ++ [']']
  | x :: xs => ',' :: (newline (depth + 1) ++ (text (depth + 1) x ++ itemsText depth xs))

/-- A field of an object at this depth. -/
def fieldText (depth : Nat) : Str × Json → Str
  | (k, x) => quoted k ++ (':' :: ' ' :: text (depth + 1) x)

/-- The fields behind the first, and the end of the object. -/
def fieldsText (depth : Nat) : List (Str × Json) → Str
  | [] => newline depth ++ ['}']
  | f :: fs => ',' :: (newline (depth + 1) ++ (fieldText depth f ++ fieldsText depth fs))

end

mutual

/-- How deep arrays and objects are nested. -/
def depth : Json → Nat
  | arr xs => itemsDepth xs + 1
  | obj fs => fieldsDepth fs + 1
  | _ => 0

/-- The depth of the deepest item. -/
def itemsDepth : List Json → Nat
  | [] => 0
  | x :: xs => max x.depth (itemsDepth xs)

/-- The depth of the deepest field. -/
def fieldsDepth : List (Str × Json) → Nat
  | [] => 0
  | (_, x) :: fs => max x.depth (fieldsDepth fs)

end

/-- `maxNestingDepth`: scanner.go. -/
def maxNestingDepth : Nat := 10000

/-- `MarshalIndent(v, "", "  ")`: encode.go.  The text is indented by scanning what `Marshal` wrote, and the
scanner refuses a text that is nested too deeply (`pushParseState`, scanner.go); `none` is this error.  Other
errors do not occur: there are no channels, functions, floats, cycles or marshalers in the trees. -/
def marshalIndent (j : Json) : Option Str := if j.depth ≤ maxNestingDepth then some (text 0 j) else none

/-- A slice.  All slices of the trees are nil if they are empty (they are made by `append`), which is `null`. -/
def slice {α : Type} (f : α → Json) : List α → Json
  | [] => null
  | x :: xs => arr (f x :: xs.map f)

/-- A pointer. -/
def ptr {α : Type} (f : α → Json) : Option α → Json
  | none => null
  | some x => f x

end Json
end Verif
