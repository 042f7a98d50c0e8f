import Verif.Model.Concrete
import Verif.Model.Utf8

/-!
# The buffered reader

`Parse` takes an `io.Reader` and the scanner wraps it in a `bufio.Reader` (scanner.go:47).  Models the functions of
the standard library that are then used: `fill`, `ReadRune` and `readErr` of bufio/bufio.go and `FullRune` of
unicode/utf8/utf8.go.  A byte is a natural number below 256.
-/

namespace Verif

/-- The errors a reader can return.  The scanner does not look at them (scanner.go:71-74). -/
inductive IOErr where
  /-- `io.EOF` -/
  | eof
  /-- `io.ErrNoProgress` -/
  | noProgress
  /-- any other error -/
  | other
  deriving DecidableEq, Repr

/-- `io.Reader`: an arbitrary state machine.  `read n` is `Read` on a slice of length `n`; it returns at most `n` bytes,
possibly together with an error. -/
structure IOReader (σ : Type) where
  read : Nat → σ → List Nat × Option IOErr × σ
  fits : ∀ n s, (read n s).1.length ≤ n

/-- `bufio.Reader`: bufio.go, `Reader`.  The fields `buf`, `r` and `w` are replaced by the bytes `buf[r:w]`; `fill` moves
them to the front, so that the free space is `len(buf) - (w - r)`. -/
structure Bufio (σ : Type) where
  /-- `rd` -/
  src : σ
  /-- `buf[r:w]` -/
  data : List Nat := []
  err : Option IOErr := none

namespace Bufio

variable {σ : Type}

/-- The loop of `fill`: `maxConsecutiveEmptyReads` attempts. -/
def fillLoop (io : IOReader σ) (size : Nat) : Nat → Bufio σ → Bufio σ
  | 0, b => { b with err := some .noProgress }
  | n + 1, b =>
    match io.read (size - b.data.length) b.src with
    | (ds, some e, s) => { src := s, data := b.data ++ ds, err := some e }
    | (ds, none, s) =>
      if ds.length > 0 then { b with src := s, data := b.data ++ ds }
      else fillLoop io size n { b with src := s, data := b.data ++ ds }

/-- `fill`. -/
def fill (io : IOReader σ) (size : Nat) (b : Bufio σ) : Bufio σ := fillLoop io size 100 b

/-- `utf8.FullRune`: the bytes begin with a full rune, or with something that cannot become one. -/
def fullRune : List Nat → Bool
  | [] => false
  | b0 :: p =>
    if p.length + 1 ≥ Utf8.lengthOf b0 then true
    else
      match p with
      | [] => false
      | [b1] => !Utf8.allows b0 b1
      | b1 :: b2 :: _ => !Utf8.allows b0 b1 || !Utf8.isCont b2

/-- The loop at the start of `ReadRune`.  Every round but the last reads a byte, and four bytes are enough, so that the
bound is not reached (`Proofs/Reader.lean`). -/
def waitRune (io : IOReader σ) (size : Nat) : Nat → Bufio σ → Bufio σ
  | 0, b => b
  | n + 1, b =>
    if b.data.length < 4 ∧ fullRune b.data = false ∧ b.err = none ∧ b.data.length < size then
      waitRune io size n (fill io size b)
    else b

/-- `ReadRune`; without the rune the error `readErr()` is returned and cleared. -/
def readRune (io : IOReader σ) (size : Nat) (b : Bufio σ) : Option Char × Bufio σ :=
  let b := waitRune io size 5 b
  match b.data with
  | [] => (none, { b with err := none })
  | b0 :: bs => (some (Utf8.decodeRune b0 bs).1, { b with data := (Utf8.decodeRune b0 bs).2 })

end Bufio

/-- The buffered reader of the scanner, with a buffer of `size` bytes.  `bufio.NewReader` makes a buffer of 4096 bytes,
or takes the given reader if it already is a `bufio.Reader` with at least this size. -/
def bufferedReader {σ : Type} (io : IOReader σ) (size : Nat) : RuneReader (Bufio σ) where
  readRune := Bufio.readRune io size

end Verif
