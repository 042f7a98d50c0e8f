import Verif.Props.Parse
import Verif.Props.Diverge
import Verif.Proofs.Terminate

/-!
# C19: termination in the presence of groups

`termination_violation` (Diverge.lean) gives an input on which `Parse` runs for ever; it contains both a group and
a block comment.  Here: both are needed.
-/

set_option backward.isDefEq.respectTransparency false
set_option backward.dsimp.instances true

namespace Verif.Props
open Spec Scanner Lexer

/-- C19, for inputs without a block comment (the text contains no `/*`), groups or not: no call needs more loop
iterations or nesting levels than the input has runes.  Missing: inputs that contain both `group` and `/*`. -/
theorem parse_terminates_noblock_partial {input : Str} (hn : NulFree input) (hb : ¬ c!"/*" <:+: input)
    (options : List ParseOpt) {fuel : Nat} (hf : input.length < fuel) :
    parse fuel input options ≠ .more := by
  intro h
  have := Parser.fin_parseProto (cfg := cfgOf fuel options) (good_new (f := fileOf options) hn) hb hf
  rw [show Parser.parseProto (cfgOf fuel options) (Lexer.new input (fileOf options)) =
    runProto fuel (configOf options) input from rfl, parse_more h] at this
  exact this rfl

/-- C19 as far as it holds: an input on which `Parse` does not return contains `group` and `/*`. -/
theorem nonterminating_input {input : Str} (hn : NulFree input) {options : List ParseOpt}
    (h : ¬ ∃ o, Parses input options o) : c!"group" <:+: input ∧ c!"/*" <:+: input := by
  have key : ∀ {fuel : Nat}, parse fuel input options = .more := by
    intro fuel
    cases hp : parse fuel input options with
    | more => rfl
    | ok p => exact absurd ⟨_, by simp, fuel, hp⟩ h
    | error e => exact absurd ⟨_, by simp, fuel, hp⟩ h
    | panic => exact absurd ⟨_, by simp, fuel, hp⟩ h
  refine ⟨Classical.byContradiction fun hg => ?_, Classical.byContradiction fun hb => ?_⟩
  · exact parse_terminates_partial hn hg options (Nat.lt_succ_self _) key
  · exact parse_terminates_noblock_partial hn hb options (Nat.lt_succ_self _) key

/-- There is such an input. -/
example : NulFree endless ∧ ¬ ∃ o, Parses endless [] o :=
  ⟨by unfold NulFree; decide +kernel, no_outcome⟩

/-- The hypotheses of the termination theorem are met by a file with a group that fails and is skipped, up to the semicolon. -/
example : NulFree c!"message M { group G = 1 { message ; }" ∧ ¬ c!"/*" <:+: c!"message M { group G = 1 { message ; }" ∧
    ¬ NoGroup c!"message M { group G = 1 { message ; }" ∧
    accepts (fun p => match p.protoBody with
      | [.message m] => match m.messageBody with
        | [.emptyStatement _] => true
        | _ => false
      | _ => false) (parse 38 c!"message M { group G = 1 { message ; }") = true := by
  refine ⟨by unfold NulFree; decide, by decide +kernel, ?_, by decide +kernel⟩
  unfold NoGroup
  decide +kernel

end Verif.Props
