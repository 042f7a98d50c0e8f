import Verif.Model.Scanner

/-!
# Histories of a scanner

The ways in which clients drive a scanner: scans in any modes, some of which are undone.
-/

namespace Verif.Spec

/-- The states a scanner of the file `f` with text `src` can be in after any sequence of scans and
undone scans, in any modes. -/
inductive Hist (f src : Str) : Scanner → Prop
  | start : Hist f src (Scanner.new src f)
  | mode (s : Scanner) (m : Mode) : Hist f src s → Hist f src { s with mode := m }
  | scan (s s' : Scanner) (r : Scanner.Scanned) : Hist f src s → Scanner.scan s = .ok r s' →
      Hist f src s'
  | undo (s s' : Scanner) (r : Scanner.Scanned) : Hist f src s → Scanner.scan s = .ok r s' →
      Hist f src s'.unScan

/-- `Scans s rs s'`: a sequence of scans, in any modes, leads from `s` to `s'`; the scans returned
`rs`, each paired with the raw text that it consumed according to the scanner. -/
inductive Scans : Scanner → List (Scanner.Scanned × Str) → Scanner → Prop
  | nil (s : Scanner) : Scans s [] s
  | cons (s s' s'' : Scanner) (m : Mode) (r : Scanner.Scanned) (rs : List (Scanner.Scanned × Str)) :
      Scanner.scan { s with mode := m } = .ok r s' → Scans s' rs s'' → Scans s ((r, s'.raw) :: rs) s''

/-- What a client sees of a sequence of scans in given modes; `none` if one of them does not return. -/
def observe : List Mode → Scanner → Option (List Scanner.Scanned)
  | [], _ => some []
  | m :: ms, s =>
    match Scanner.scan { s with mode := m } with
    | .ok r s' => (observe ms s').map (r :: ·)
    | _ => none

end Verif.Spec
