import Verif.Proofs.MachineFile

/-!
# Files without services

Only the embedded comments of an RPC need to know where the scanner is (`Proofs/MachineFile.lean`).  An accepted file
without services is therefore read alike by both models whatever has happened before: failed groups and NUL included.
-/

set_option backward.isDefEq.respectTransparency false
set_option backward.dsimp.instances true

namespace Verif

open Lexer Spec

variable {ρ : Type} [Source ρ]

/-- The statement is a service. -/
def Visitee.isService : Visitee → Bool
  | .service _ => true
  | _ => false

section
variable {α β γ : Type} {f : α → β}

theorem bind_inv {m : P α} {F : α → P γ} {l l' : Lexer} {b : γ} (h : (m >>= F) l = .ok b l') :
    ∃ a l1, m l = .ok a l1 ∧ F a l1 = .ok b l' := by
  change M.bind m F l = _ at h
  unfold M.bind at h
  split at h
  · exact ⟨_, _, ‹_›, h⟩
  · cases h
  · cases h

theorem Ref.run {m : P α} {m' : MP ρ β} (hm : Ref f m m') {l l' : Lexer} {k : Machine ρ} {a : α} (h : RLex l k)
    (e : m l = .ok a l') : ∃ k', m' k = .ok (f a) k' ∧ RLex l' k' := by
  have := hm l k h
  rw [e] at this
  generalize m' k = x at this
  cases x with
  | ok b k' => exact ⟨k', by rw [this.1], this.2⟩
  | err e' k' => exact this.elim
  | halt y => cases y <;> exact this.elim

end

namespace Parser

variable (cfg : Cfg)

theorem plain_protoStmt {cs : List Comment} {t : Token} {l l' : Lexer} {k : Machine ρ} {r : List Visitee × Visitee}
    (h : RLex l k) (e : protoStmt cfg cs t l = .ok r l') (hv : r.2.isService = false) :
    ∃ k', Machine.Parse.protoStmt cfg cs t k = .ok r k' ∧ RLex l' k' := by
  by_cases ht : t = .kService
  · subst ht
    obtain ⟨a, l1, _, e⟩ := bind_inv e
    cases e
    cases hv
  · refine Ref.run (f := fun a => a) (m := protoStmt cfg cs t) ?_ h e
    unfold protoStmt Machine.Parse.protoStmt
    have hm := ref_parseMessageK (ρ := ρ) false cfg
    rw [parseMessageK_false] at hm
    cases t <;> first
      | exact absurd rfl ht
      | with_reducible exact ref_readEmptyStatement.bind fun _ => Ref.pure rfl
      | with_reducible exact ref_parseImport.bind fun _ => Ref.pure rfl
      | with_reducible exact ref_parsePackage.bind fun _ => Ref.pure rfl
      | with_reducible exact (ref_parseOption cfg).bind fun _ => Ref.pure rfl
      | with_reducible exact hm.bind fun _ => Ref.pure rfl
      | with_reducible exact (ref_parseEnum cfg).bind fun _ => Ref.pure rfl
      | with_reducible exact (ref_parseExtend cfg).bind fun _ => Ref.pure rfl

theorem maybeScan_service {v w : Visitee} {l l' : Lexer} (e : maybeScanInlineComment v l = .ok w l') :
    w.isService = v.isService := by
  unfold maybeScanInlineComment at e
  obtain ⟨c, l1, _, e⟩ := bind_inv e
  cases c with
  | none => cases e; rfl
  | some c => cases v <;> cases e <;> rfl

theorem protoLoop_prefix (n : Nat) : ∀ {l l' : Lexer} {vs r : List Visitee}, protoLoop cfg n vs l = .ok r l' →
    ∃ more, r = vs ++ more := by
  induction n with
  | zero => intro l l' vs r e; cases e
  | succ n ih =>
    intro l l' vs r e
    unfold protoLoop at e
    obtain ⟨cs, l1, _, e⟩ := bind_inv e
    obtain ⟨b, l2, _, e⟩ := bind_inv e
    by_cases hb : b = true
    · rw [if_pos hb] at e
      cases e
      exact ⟨_, rfl⟩
    rw [if_neg hb] at e
    obtain ⟨t, l3, _, e⟩ := bind_inv e
    obtain ⟨⟨now, v⟩, l4, _, e⟩ := bind_inv e
    obtain ⟨w, l5, _, e⟩ := bind_inv e
    obtain ⟨more, hm⟩ := ih e
    exact ⟨now ++ [w] ++ more, by rw [hm]; simp⟩

theorem plain_protoLoop (n : Nat) : ∀ {l l' : Lexer} {k : Machine ρ} {vs r : List Visitee}, RLex l k →
    protoLoop cfg n vs l = .ok r l' → (∀ v ∈ r, v.isService = false) →
      ∃ k', Machine.Parse.protoLoop cfg n vs k = .ok r k' ∧ RLex l' k' := by
  induction n with
  | zero => intro l l' k vs r _ e; cases e
  | succ n ih =>
    intro l l' k vs r h e hr
    unfold protoLoop at e
    unfold Machine.Parse.protoLoop
    obtain ⟨cs, l1, e1, e⟩ := bind_inv e
    obtain ⟨k1, d1, h⟩ := ref_parseComments.run h e1
    obtain ⟨b, l2, e2, e⟩ := bind_inv e
    obtain ⟨k2, d2, h⟩ := ref_eof.run h e2
    rw [M.bind_ok d1, M.bind_ok d2]
    by_cases hb : b = true
    · rw [if_pos hb] at e ⊢
      cases e
      exact ⟨k2, rfl, h⟩
    rw [if_neg hb] at e ⊢
    obtain ⟨t, l3, e3, e⟩ := bind_inv e
    obtain ⟨k3, d3, h⟩ := ref_peekKeyword.run h e3
    rw [M.bind_ok d3]
    obtain ⟨⟨now, v⟩, l4, e4, e⟩ := bind_inv e
    obtain ⟨w, l5, e5, e⟩ := bind_inv e
    have hv : v.isService = false := by
      rw [← maybeScan_service e5]
      obtain ⟨more, rfl⟩ := protoLoop_prefix cfg n e
      exact hr w (by simp)
    obtain ⟨k4, d4, h⟩ := plain_protoStmt cfg h e4 hv
    obtain ⟨k5, d5, h⟩ := (ref_maybeScanInlineComment v).run h e5
    rw [M.bind_ok d4]
    simp only
    rw [M.bind_ok d5]
    exact ih h e hr

/-- An accepted file without services, in any state. -/
theorem plain_parseProto {l l' : Lexer} {k : Machine ρ} {p : Proto} (h : RLex l k) (e : parseProto cfg l = .ok p l')
    (hp : ∀ v ∈ p.protoBody, v.isService = false) :
    ∃ k', Machine.Parse.parseProto cfg k = .ok p k' ∧ RLex l' k' := by
  unfold parseProto at e
  unfold Machine.Parse.parseProto
  obtain ⟨_, l1, e1, e⟩ := bind_inv e
  obtain ⟨k1, d1, h⟩ := ref_parseBOM.run h e1
  obtain ⟨cs, l2, e2, e⟩ := bind_inv e
  obtain ⟨k2, d2, h⟩ := ref_parseComments.run h e2
  obtain ⟨s, l3, e3, e⟩ := bind_inv e
  obtain ⟨k3, d3, h⟩ := (ref_syntaxPart cs).run h e3
  obtain ⟨d, l4, e4, e⟩ := bind_inv e
  obtain ⟨k4, d4, h⟩ := (ref_editionPart cs).run h e4
  obtain ⟨b, l5, e5, e⟩ := bind_inv e
  obtain ⟨q, l6, e6, e⟩ := bind_inv e
  cases e
  obtain ⟨k5, d5, h⟩ := plain_protoLoop cfg _ h e5 hp
  obtain ⟨k6, d6, h⟩ := ref_position.run h e6
  rw [M.bind_ok d1, M.bind_ok d2, M.bind_ok d3, M.bind_ok d4, M.bind_ok (m := Machine.Parse.parseProtoBody cfg) d5,
    M.bind_ok d6]
  exact ⟨k6, rfl, h⟩

end Parser

end Verif
