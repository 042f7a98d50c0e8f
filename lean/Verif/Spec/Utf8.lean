import Verif.Spec.Position

/-!
# UTF-8

The encoding of RFC 3629, independent of the decoder.
-/

namespace Verif.Spec

/-- The bytes of a rune. -/
def encodeRune (c : Char) : List Nat :=
  let n := c.toNat
  if n < 0x80 then [n]
  else if n < 0x800 then [0xC0 + n / 0x40, 0x80 + n % 0x40]
  else if n < 0x10000 then [0xE0 + n / 0x1000, 0x80 + n / 0x40 % 0x40, 0x80 + n % 0x40]
  else [0xF0 + n / 0x40000, 0x80 + n / 0x1000 % 0x40, 0x80 + n / 0x40 % 0x40, 0x80 + n % 0x40]

/-- The bytes of a text. -/
def encode (t : Str) : List Nat := t.flatMap encodeRune

end Verif.Spec
