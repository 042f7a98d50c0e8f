import Verif.Model.Json
import Verif.Spec.Format

/-!
# JSON texts

The grammar of RFC 8259, with the values that the texts denote.  Numbers are integers here.
-/

namespace Verif.Spec

/-- Insignificant white space. -/
def JsonSpace (s : Str) : Prop := ∀ c ∈ s, c = ' ' ∨ c = '\t' ∨ c = '\n' ∨ c = '\r'

/-- The inside of a string and the characters that it denotes. -/
inductive JsonChars : Str → Str → Prop
  | nil : JsonChars [] []
  | plain {c : Char} {r s : Str} : 32 ≤ c.toNat → c ≠ '"' → c ≠ '\\' → JsonChars r s → JsonChars (c :: r) (c :: s)
  | short {e c : Char} {r s : Str} : (e, c) ∈ [('"', '"'), ('\\', '\\'), ('/', '/'), ('b', Char.ofNat 8),
      ('f', Char.ofNat 12), ('n', Char.ofNat 10), ('r', Char.ofNat 13), ('t', Char.ofNat 9)] →
      JsonChars r s → JsonChars ('\\' :: e :: r) (c :: s)
  | code {h r s : Str} {c : Char} : h.length = 4 → (∀ d ∈ h, d ∈ c!"0123456789abcdefABCDEF") →
      value 16 (h.map Char.toLower) = c.toNat → JsonChars r s → JsonChars ('\\' :: 'u' :: (h ++ r)) (c :: s)

/-- A string. -/
def JsonString (t s : Str) : Prop := ∃ r, t = '"' :: (r ++ ['"']) ∧ JsonChars r s

/-- An integer: an optional minus and digits without superfluous zeros. -/
def JsonInt (t : Str) (n : Int) : Prop :=
  ∃ m d : Str, t = m ++ d ∧ (m = [] ∨ m = ['-']) ∧ d ≠ [] ∧ (∀ c ∈ d, c ∈ c!"0123456789") ∧
    (d.head? = some '0' → d.length = 1) ∧ n = (if m = [] then (value 10 d : Int) else - (value 10 d : Int))

mutual

/-- A value, without white space around it. -/
inductive JsonValue : Str → Json → Prop
  | null : JsonValue c!"null" .null
  | true : JsonValue c!"true" (.bool .true)
  | false : JsonValue c!"false" (.bool .false)
  | num {t : Str} {n : Int} : JsonInt t n → JsonValue t (.num n)
  | str {t s : Str} : JsonString t s → JsonValue t (.str s)
  | noItems {w : Str} : JsonSpace w → JsonValue ('[' :: (w ++ [']'])) (.arr [])
  | arr {t : Str} {x : Json} {xs : List Json} : JsonItems t (x :: xs) → JsonValue ('[' :: (t ++ [']'])) (.arr (x :: xs))
  | noFields {w : Str} : JsonSpace w → JsonValue ('{' :: (w ++ ['}'])) (.obj [])
  | obj {t : Str} {f : Str × Json} {fs : List (Str × Json)} : JsonFields t (f :: fs) →
      JsonValue ('{' :: (t ++ ['}'])) (.obj (f :: fs))

/-- One or more values with commas between them. -/
inductive JsonItems : Str → List Json → Prop
  | one {v t w : Str} {x : Json} : JsonSpace v → JsonValue t x → JsonSpace w → JsonItems (v ++ (t ++ w)) [x]
  | more {v t w r : Str} {x y : Json} {ys : List Json} : JsonSpace v → JsonValue t x → JsonSpace w →
      JsonItems r (y :: ys) → JsonItems (v ++ (t ++ (w ++ ',' :: r))) (x :: y :: ys)

/-- One or more fields with commas between them. -/
inductive JsonFields : Str → List (Str × Json) → Prop
  | one {v k u s t w : Str} {n : Str} {x : Json} : JsonSpace v → JsonString k n → JsonSpace u → JsonSpace s →
      JsonValue t x → JsonSpace w → JsonFields (v ++ (k ++ (u ++ ':' :: (s ++ (t ++ w))))) [(n, x)]
  | more {v k u s t w r : Str} {n : Str} {x : Json} {f : Str × Json} {fs : List (Str × Json)} : JsonSpace v →
      JsonString k n → JsonSpace u → JsonSpace s → JsonValue t x → JsonSpace w → JsonFields r (f :: fs) →
      JsonFields (v ++ (k ++ (u ++ ':' :: (s ++ (t ++ (w ++ ',' :: r)))))) ((n, x) :: f :: fs)

end

end Verif.Spec
