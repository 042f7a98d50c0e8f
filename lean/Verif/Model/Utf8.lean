import Verif.Model.Api

/-!
# From bytes to runes

Models what the scanner gets from `bufio.Reader.ReadRune` (scanner.go:71): the standard library
function `utf8.DecodeRune` (unicode/utf8/utf8.go), applied again and again to the bytes of the input.
A byte is a natural number below 256.  `Model/Reader.lean` models the buffering of the reader; the pieces in
which bytes arrive do not matter (`Props/Reader.lean`).
-/

namespace Verif.Utf8

/-- `utf8.RuneError`: what an invalid byte is decoded to. -/
def runeError : Char := Char.ofNat 0xFFFD

/-- A continuation byte: `locb`, `hicb`. -/
def isCont (b : Nat) : Bool := 0x80 ≤ b ∧ b ≤ 0xBF

/-- `acceptRanges` of the table `first`: the second bytes allowed behind the first byte `b0`. -/
def allows (b0 b1 : Nat) : Bool :=
  if b0 = 0xE0 then 0xA0 ≤ b1 ∧ b1 ≤ 0xBF
  else if b0 = 0xED then 0x80 ≤ b1 ∧ b1 ≤ 0x9F
  else if b0 = 0xF0 then 0x90 ≤ b1 ∧ b1 ≤ 0xBF
  else if b0 = 0xF4 then 0x80 ≤ b1 ∧ b1 ≤ 0x8F
  else isCont b1

/-- The length of the sequences that start with `b0`, by the table `first`; 0 for `xx`. -/
def lengthOf (b0 : Nat) : Nat :=
  if b0 < 0x80 then 1
  else if b0 < 0xC2 then 0
  else if b0 < 0xE0 then 2
  else if b0 < 0xF0 then 3
  else if b0 < 0xF5 then 4
  else 0

/-- `utf8.DecodeRune` on a non-empty slice: the rune, and what is left. -/
def decodeRune (b0 : Nat) (bs : List Nat) : Char × List Nat :=
  match lengthOf b0, bs with
  | 1, _ => (Char.ofNat b0, bs)
  | 2, b1 :: r =>
    if allows b0 b1 then (Char.ofNat (b0 % 0x20 * 0x40 + b1 % 0x40), r) else (runeError, bs)
  | 3, b1 :: b2 :: r =>
    if allows b0 b1 ∧ isCont b2 then
      (Char.ofNat (b0 % 0x10 * 0x1000 + b1 % 0x40 * 0x40 + b2 % 0x40), r)
    else (runeError, bs)
  | 4, b1 :: b2 :: b3 :: r =>
    if allows b0 b1 ∧ isCont b2 ∧ isCont b3 then
      (Char.ofNat (b0 % 8 * 0x40000 + b1 % 0x40 * 0x1000 + b2 % 0x40 * 0x40 + b3 % 0x40), r)
    else (runeError, bs)
  | _, _ => (runeError, bs)

theorem decodeRune_length (b0 : Nat) (bs : List Nat) : (decodeRune b0 bs).2.length ≤ bs.length := by
  unfold decodeRune
  split <;> (try split) <;> simp <;> omega

/-- All runes that the reader delivers. -/
def decode : List Nat → Str
  | [] => []
  | b0 :: bs => (decodeRune b0 bs).1 :: decode (decodeRune b0 bs).2
  termination_by bs => bs.length
  decreasing_by have := decodeRune_length b0 bs; simp; omega

/-- `Parse` on a reader that delivers these bytes: protoparser.go:52-70. -/
def parseBytes (fuel : Nat) (bytes : List Nat) (options : List ParseOpt := []) : Outcome Proto :=
  parse fuel (decode bytes) options

end Verif.Utf8
