import Verif.Model.Error

/-!
# Reading texts back

How a reader gets numbers and strings back from the texts of positions and errors: decimal numbers,
and Go's syntax of interpreted string literals.
-/

namespace Verif.Spec

/-- The value of a digit, decimal or lower case hexadecimal. -/
def digit (c : Char) : Nat := if c.toNat ≤ 57 then c.toNat - 48 else c.toNat - 87

/-- The value of digits in a base. -/
def value (base : Nat) (s : Str) : Nat := s.foldl (fun n c => n * base + digit c) 0

/-- The value of a decimal number with an optional minus. -/
def decimal : Str → Int
  | '-' :: s => - value 10 s
  | s => value 10 s

/-- The first character of the inside of an interpreted string literal, and what follows. -/
def unescape : Str → Option (Char × Str)
  | [] => none
  | '\\' :: 'a' :: s => some (Char.ofNat 7, s)
  | '\\' :: 'b' :: s => some (Char.ofNat 8, s)
  | '\\' :: 'f' :: s => some (Char.ofNat 12, s)
  | '\\' :: 'n' :: s => some ('\n', s)
  | '\\' :: 'r' :: s => some ('\r', s)
  | '\\' :: 't' :: s => some ('\t', s)
  | '\\' :: 'v' :: s => some (Char.ofNat 11, s)
  | '\\' :: '\\' :: s => some ('\\', s)
  | '\\' :: '"' :: s => some ('"', s)
  | '\\' :: 'x' :: s => some (Char.ofNat (value 16 (s.take 2)), s.drop 2)
  | '\\' :: 'u' :: s => some (Char.ofNat (value 16 (s.take 4)), s.drop 4)
  | '\\' :: 'U' :: s => some (Char.ofNat (value 16 (s.take 8)), s.drop 8)
  | c :: s => some (c, s)

/-- The first fault of an error: the one of the parser for a failed field, range or value. -/
def firstFault : Err → Position × String × Found
  | .single p e f => (p, e, f)
  | .pair a _ => firstFault a

/-- The name of the file of a position, as shown. -/
def shownName (p : Position) : Str := if p.filename = [] then c!"<input>" else p.filename

end Verif.Spec
