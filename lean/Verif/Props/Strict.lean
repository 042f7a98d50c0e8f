import Verif.Props.Parse
import Verif.Proofs.StrictBlock

/-!
# C34: what the permissive option changes

The trees are compared by `Spec.Relaxed` (Spec/Strict.lean).
-/

set_option backward.isDefEq.respectTransparency false
set_option backward.dsimp.instances true

namespace Verif.Props
open Spec Scanner Lexer

/-- C34.  An input that `Parse` accepts without the permissive option it also accepts with it, and the second tree is
the first one with string constants quoted anew and with the semicolons behind blocks taken into the blocks. -/
theorem permissive_accepts {input : Str} (hn : NulFree input) {options : List ParseOpt} {a : Proto}
    (h : Parses input (options ++ [withPermissive false]) (.ok a)) :
    ∃ b, Parses input (options ++ [withPermissive true]) (.ok b) ∧ Relaxed a b := by
  obtain ⟨-, n, h⟩ := h
  have hc : ∀ p, configOf (options ++ [withPermissive p]) = { configOf options with permissive := p } := by
    intro p; simp [configOf, withPermissive]
  unfold parse runProto at h
  rw [hc] at h
  have hg := good_new (f := (configOf options).filename) hn
  have := (asim_parseProto (W := Never) (b := (configOf options).bodyIncludingComments) (Nat.le_refl n)).run
    _ _ (⟨hg, hg, rfl, rfl⟩ : Near (Lexer.new input (configOf options).filename) _)
  revert this h
  generalize hr : Parser.parseProto _ (Lexer.new input (configOf options).filename) = r
  intro h this
  cases r with
  | err e l => simp [Outcome.ofRes] at h
  | halt x => cases x <;> simp [Outcome.ofRes] at h
  | ok a' l =>
    simp only [Outcome.ofRes, Outcome.ok.injEq] at h
    subst h
    rcases this with ⟨b, l', hb, h, -⟩ | h
    · refine ⟨b, ⟨by simp, n, ?_⟩, h⟩
      unfold parse runProto
      rw [hc]
      simp only
      rw [hb]
      rfl
    · exact h.elim

/-- The options of `Parse` are permissive unless told otherwise: so what the option forbids, the default accepts. -/
theorem default_accepts {input : Str} (hn : NulFree input) {a : Proto}
    (h : Parses input [withPermissive false] (.ok a)) : ∃ b, Parses input [] (.ok b) ∧ Relaxed a b := by
  obtain ⟨b, ⟨h1, n, h2⟩, h3⟩ := permissive_accepts (options := []) hn h
  exact ⟨b, ⟨h1, n, h2⟩, h3⟩

/-- The shape of a body, for the examples. -/
private def shape : List Visitee → List (String × Int)
  | [] => []
  | .message m :: vs => ("message", m.info.lastPos.offset) :: shape vs
  | .option o :: vs => ("option " ++ String.ofList o.constant, 0) :: shape vs
  | .emptyStatement _ :: vs => ("semicolon", 0) :: shape vs
  | .nil :: vs => ("nil", 0) :: shape vs
  | _ :: vs => ("other", 0) :: shape vs

/-- The hypotheses are met, and both differences occur: the semicolon behind the block, and the constant `"a\""`, of
which the permissive run makes `"a\"`. -/
example : NulFree c!"message M {}; option o = \"a\\\"\";" ∧
    accepts (fun p => shape p.protoBody = [("message", 11), ("semicolon", 0), ("nil", 0), ("option \"a\\\"\"", 0)])
      (parse 40 c!"message M {}; option o = \"a\\\"\";" [withPermissive false]) = true ∧
    accepts (fun p => shape p.protoBody = [("message", 12), ("option \"a\\\"", 0)])
      (parse 40 c!"message M {}; option o = \"a\\\"\";" [withPermissive true]) = true :=
  ⟨by unfold NulFree; decide, by decide +kernel, by decide +kernel⟩

end Verif.Props
