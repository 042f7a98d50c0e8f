import Verif.Props.Dump
import Verif.Proofs.JsonUnique
import Verif.Proofs.Undump

/-!
# Reading the dump back (C78)
-/

set_option backward.isDefEq.respectTransparency false
set_option backward.dsimp.instances true

namespace Verif.Props
open Spec Proofs Json
open Verif.Dump (Flags Ran run base)

theorem marshalled {j : Json} {out : Str} (h : marshalIndent j = some out) : JsonValue out j := by
  unfold marshalIndent at h
  split at h <;> simp at h
  rw [← h]
  exact jsonValue_text j 0

/-- C78: who parses what a run without `-unordered` printed, in whatever way, and picks the fields by their names, gets
the tree that was parsed. -/
theorem dump_reads {flags : Flags} {bytes : List Nat} {c : Nat} {out : Str} {err : List Dump.Message}
    (hu : flags.unordered = false) (h : Runs flags (some bytes) (.exit c out err)) (hne : out ≠ []) :
    ∃ p, Parsed flags bytes p ∧ (∃ j, JsonValue out j) ∧ ∀ j, JsonValue out j → Undump.readProto j = some p := by
  obtain ⟨b, p, e, h1, _, _, h2 | h2⟩ := printed h hne
  · cases e
    refine ⟨p, h1, ⟨_, marshalled h2.2⟩, fun j hj => ?_⟩
    rw [jsonValue_unique hj (marshalled h2.2)]
    exact Proofs.Undump.read_Proto p
  · rw [hu] at h2; simp at h2

/-- C78: with `-unordered` they get the unordered tree. -/
theorem dump_reads_unordered {flags : Flags} {bytes : List Nat} {c : Nat} {out : Str} {err : List Dump.Message}
    (hu : flags.unordered = true) (h : Runs flags (some bytes) (.exit c out err)) (hne : out ≠ []) :
    ∃ p u, Parsed flags bytes p ∧ Unordered.interpretProto p = .ok u ∧ (∃ j, JsonValue out j) ∧
      ∀ j, JsonValue out j → Undump.readUProto j = some u := by
  obtain ⟨b, p, e, h1, _, _, h2 | ⟨_, u, hi, h2⟩⟩ := printed h hne
  · rw [hu] at h2; simp at h2
  · cases e
    refine ⟨p, u, h1, hi, ⟨_, marshalled h2⟩, fun j hj => ?_⟩
    rw [jsonValue_unique hj (marshalled h2)]
    exact Proofs.Undump.read_UProto u

/-- The first applies to a file with a nested message and a group. -/
example : ∃ out, Runs {} (some (encode c!"message M { message N {} repeated group G = 1 {} }")) (.exit 0 out []) ∧
    out ≠ [] := by
  have h : (match run 40 {} (some (encode c!"message M { message N {} repeated group G = 1 {} }")) with
      | .exit 0 (_ :: _) [] => true
      | _ => false) = true := by decide +kernel
  split at h
  · next hr => exact ⟨_, ⟨by simp, 40, hr⟩, by simp⟩
  · simp at h

/-- The second applies to a file with an enum and a service. -/
example : ∃ out, Runs { unordered := true } (some (encode c!"enum E { A = 0; } service S { rpc F(E) returns(stream E); }"))
    (.exit 0 out []) ∧ out ≠ [] := by
  have h : (match run 40 { unordered := true }
        (some (encode c!"enum E { A = 0; } service S { rpc F(E) returns(stream E); }")) with
      | .exit 0 (_ :: _) [] => true
      | _ => false) = true := by decide +kernel
  split at h
  · next hr => exact ⟨_, ⟨by simp, 40, hr⟩, by simp⟩
  · simp at h

end Verif.Props
