import Verif.Spec.Reader

/-!
# What has been read of a reader (C83)
-/

namespace Verif.Spec

/-- Two readers give the same next `n` runes. -/
def AgreeFor {ρ ρ' : Type} (rd : RuneReader ρ) (rd' : RuneReader ρ') : Nat → ρ → ρ' → Prop
  | 0, _, _ => True
  | n + 1, r, r' => (rd.readRune r).1.getD eof = (rd'.readRune r').1.getD eof ∧
      AgreeFor rd rd' n (rd.readRune r).2 (rd'.readRune r').2

/-- A reader that counts how often it is read. -/
def counting {ρ : Type} (rd : RuneReader ρ) : RuneReader (ρ × Nat) where
  readRune s := ((rd.readRune s.1).1, (rd.readRune s.1).2, s.2 + 1)

end Verif.Spec
