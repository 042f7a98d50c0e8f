import Verif.Proofs.Mark

set_option backward.isDefEq.respectTransparency false
set_option backward.dsimp.instances true

/-!
# The bound on the iterations
-/

namespace Verif.Props

open Verif Spec

theorem eq_of_rel {k : Coms} {o o' : Outcome Proto} (hk : k = .both)
    (h : OutcomeRel (AlikeProto Link.same.at k) (AlikeErr Link.same.at) o o') : o = o' := by
  subst hk
  cases h with
  | ok h => rw [alikeProto_both (fun _ _ => Link.same_at) h]
  | error h => rw [h.eq (fun _ _ => Link.same_at)]
  | panic => rfl

/-- C52: an outcome reached within a bound is the outcome within any larger one. -/
theorem parse_mono {input : Str} {options : List ParseOpt} {n n' : Nat} (hn : n ≤ n')
    (h : parse n input options ≠ .more) : parse n' input options = parse n input options :=
  ((alike_parse (ρ := Link.same) (k := .both) (c := configOf options) (c' := configOf options)
    rfl (.inl ⟨rfl, by simp⟩) hn trivial rfl).elim (fun e => absurd e h) (fun h => eq_of_rel rfl h)).symm

end Verif.Props
