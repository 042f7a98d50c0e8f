import Verif.Proofs.MachinePlain
import Verif.Props.Parse

/-!
# How far the reader has been read when `Parse` succeeds
-/

set_option backward.isDefEq.respectTransparency false
set_option backward.dsimp.instances true

namespace Verif

open Spec Lexer Props

variable {ρ : Type} [Source ρ]

/-- The reader has nothing left. -/
def Drained (k : Machine ρ) : Prop := Gives Source.rd k.scanner.reader []

theorem unScan_reader (c : Concrete ρ) : c.unScan.reader = c.reader := by
  unfold Concrete.unScan
  generalize c.raw.reverse = t
  have : ∀ (t : Str) (c : Concrete ρ), (t.foldl (fun c ch => Concrete.unread ch c) c).reader = c.reader := by
    intro t
    induction t with
    | nil => intro c; rfl
    | cons ch t ih => intro c; rw [List.foldl_cons, ih]; rfl
  exact this t c

namespace Parser

/-- The end of the input is seen only when the reader has nothing left. -/
theorem isEOF_drained {l l' : Lexer} {k k' : Machine ρ} (hg : Good l) (h : RLex l k) (e : isEOF l = .ok true l')
    (d : Machine.Parse.isEOF k = .ok true k') : Drained k' := by
  obtain ⟨_, l1, e1, e⟩ := bind_inv e
  obtain ⟨k1, d1, h1⟩ := ref_next.run h e1
  rw [run_next hg] at e1
  cases e1
  obtain ⟨b, l2, e2, e⟩ := bind_inv e
  cases e2
  obtain ⟨_, l3, e3, e⟩ := bind_inv e
  have ht : (nextSt {} l).token = .eof := of_decide_eq_true (Res.ok.inj e).1
  have hi := (eof_took hg (m := {}) rfl ht).2.1
  have hk : k'.scanner.reader = k1.scanner.reader := by
    unfold Machine.Parse.isEOF at d
    rw [M.bind_ok d1] at d
    rw [← (Res.ok.inj d).2]
    exact unScan_reader _
  obtain ⟨rest, h2, h3, _⟩ := h1.stand.inp
  rw [hi] at h2
  have hr : rest = [] := (List.append_eq_nil_iff.1 h2.symm).2
  subst hr
  unfold Drained
  rw [hk]
  exact h3

section
variable (calm : Bool) (cfg : Cfg)

theorem SameRes.okay {α β : Type} {f : α → β} {m : P α} {m' : MP ρ β} {l l' : Lexer} {k : Machine ρ} {a : α}
    (h : Verif.SameRes f (m l) (m' k)) (e : m l = .ok a l') : ∃ k', m' k = .ok (f a) k' ∧ RLex l' k' := by
  rw [e] at h
  generalize m' k = x at h
  cases x with
  | ok b k' => exact ⟨k', by rw [h.1], h.2⟩
  | err e' k' => exact h.elim
  | halt y => cases y <;> exact h.elim

theorem last_protoLoop (n : Nat) : ∀ {l l' : Lexer} {k : Machine ρ} {vs r : List Visitee}, Good l → Recd l →
    NoGroup l.scanner.inp ∨ calm = true → RLex l k → protoLoopK calm cfg n vs l = .ok r l' →
    ∃ k', Machine.Parse.protoLoop cfg n vs k = .ok r k' ∧ Drained k' := by
  induction n with
  | zero => intro l l' k vs r _ _ _ _ e; cases e
  | succ n ih =>
    intro l l' k vs r hg hr hc h e
    unfold protoLoopK at e
    unfold Machine.Parse.protoLoop
    obtain ⟨cs, l1, e1, e⟩ := bind_inv e
    obtain ⟨k1, d1, h⟩ := ref_parseComments.run h e1
    obtain ⟨ht, hn⟩ := took_comments hg e1
    obtain ⟨b, l2, e2, e⟩ := bind_inv e
    have h0 := h
    obtain ⟨k2, d2, h⟩ := ref_eof.run h e2
    rw [M.bind_ok d1, M.bind_ok d2]
    by_cases hb : b = true
    · rw [if_pos hb] at e ⊢
      cases e
      subst hb
      exact ⟨k2, rfl, isEOF_drained ht.good h0 e2 d2⟩
    rw [if_neg hb] at e ⊢
    obtain ⟨ht', hn⟩ := took_isEOF ht.good hn e2
    have ht := ht.trans ht'
    obtain ⟨t, l3, e3, e⟩ := bind_inv e
    obtain ⟨k3, d3, h⟩ := ref_peekKeyword.run h e3
    obtain ⟨ht3, hn⟩ := took_peekKeyword ht.good hn e3
    have ht := ht.trans ht3
    have hc3 : NoGroup l3.scanner.inp ∨ calm = true := hc.imp (fun h => h.suffix ht.suffix) id
    rw [M.bind_ok d3]
    obtain ⟨⟨now, v⟩, l4, e4, e⟩ := bind_inv e
    obtain ⟨k4, d4, h⟩ := SameRes.okay (same_protoStmt calm cfg cs t ht.good (ht.recd hr) h) e4
    obtain ⟨hg4, hs⟩ := (protoStmt_sat (calm := calm) (H := fun _ => True) ht.good (.inl trivial)).ok_of e4
    obtain ⟨us, hs⟩ : ∃ us, Took l3 us l4 := by
      rcases hs with ⟨_, _, _, _, _, ts, _, hs⟩ | ⟨_, x, _, hs, _⟩
      · exact ⟨_, (hs (.inl hc3)).took⟩
      · exact ⟨_, hs⟩
    have ht := ht.trans hs
    obtain ⟨w, l5, e5, e⟩ := bind_inv e
    obtain ⟨k5, d5, h⟩ := (ref_maybeScanInlineComment v).run h e5
    have ht := ht.trans (took_maybeScan ht.good e5)
    rw [M.bind_ok d4]
    simp only
    rw [M.bind_ok d5]
    exact ih ht.good (ht.recd hr) (hc.imp (fun h => h.suffix ht.suffix) id) h e

/-- When `ParseProto` succeeds the reader has nothing left. -/
theorem last_parseProto {l l' : Lexer} {k : Machine ρ} {p : Proto} (hg : Good l) (hr : Recd l)
    (hc : NoGroup l.scanner.inp ∨ calm = true) (h : RLex l k) (e : parseProtoK calm cfg l = .ok p l') :
    ∃ k', Machine.Parse.parseProto cfg k = .ok p k' ∧ Drained k' := by
  obtain ⟨k', hk, _⟩ := SameRes.okay (same_parseProto calm cfg hg hr hc h) e
  refine ⟨k', hk, ?_⟩
  unfold parseProtoK at e
  unfold Machine.Parse.parseProto at hk
  obtain ⟨_, l1, e1, e⟩ := bind_inv e
  obtain ⟨k1, d1, h⟩ := ref_parseBOM.run h e1
  obtain ⟨bom, _, ht⟩ := (parseBOM_sat (H := fun _ => True) (E := fun _ _ => True) hg).ok_of e1
  have ht := ht.took
  obtain ⟨cs, l2, e2, e⟩ := bind_inv e
  obtain ⟨k2, d2, h⟩ := ref_parseComments.run h e2
  have ht := ht.trans (took_comments ht.good e2).1
  obtain ⟨s, l3, e3, e⟩ := bind_inv e
  obtain ⟨k3, d3, h⟩ := (ref_syntaxPart cs).run h e3
  obtain ⟨_, _, _, ht3, _⟩ := (syntaxPart_sat (H := fun _ => True) (sm := true) ht.good).ok_of e3
  have ht := ht.trans ht3.took
  obtain ⟨d, l4, e4, e⟩ := bind_inv e
  obtain ⟨k4, d4, h⟩ := (ref_editionPart cs).run h e4
  obtain ⟨_, _, _, ht4, _⟩ := (editionPart_sat (H := fun _ => True) (sm := true) ht.good).ok_of e4
  have ht := ht.trans ht4.took
  obtain ⟨b, l5, e5, e⟩ := bind_inv e
  obtain ⟨k5, d5, hd⟩ := last_protoLoop calm cfg _ ht.good (ht.recd hr) (hc.imp (fun h => h.suffix ht.suffix) id) h e5
  rw [M.bind_ok d1, M.bind_ok d2, M.bind_ok d3, M.bind_ok d4, M.bind_ok (m := Machine.Parse.parseProtoBody cfg) d5] at hk
  have : k5 = k' := (Res.ok.inj hk).2
  exact this ▸ hd

end

end Parser

end Verif
