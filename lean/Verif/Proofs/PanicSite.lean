import Verif.Spec.SemiComment
import Verif.Proofs.Terminate
import Verif.Proofs.Calm
import Verif.Proofs.CompleteProto

/-!
# Where a panic can be

For texts that do not contain both a group and a block comment.  Used for C20.
-/

set_option backward.isDefEq.respectTransparency false
set_option backward.dsimp.instances true

namespace Verif
open Spec Scanner Lexer

theorem _root_.Verif.Spec.SemiComment.of_suffix {t u : Str} (h : SemiComment u) (hu : u <:+ t) : SemiComment t := by
  obtain ⟨p, rfl⟩ := hu
  obtain ⟨c, g, k, rest, rfl, h⟩ := h
  exact ⟨p ++ c, g, k, rest, by simp, h⟩

/-- Group recovery puts nothing back that was not there. -/
def Mild (t : Str) : Prop := NoBlock t ∨ NoGroup t

theorem Mild.suffix {t u : Str} (h : Mild t) (hu : u <:+ t) : Mild u :=
  h.imp (fun h => h.suffix hu) (fun h => h.suffix hu)

namespace Parser

theorem comment_start {rest raw text : Str} (h : Spec.Comment rest raw text) :
    ∃ k r, raw = '/' :: k :: r ∧ (k = '/' ∨ k = '*') := by
  cases h with
  | line b => exact ⟨'/', _, rfl, .inl rfl⟩
  | last b => exact ⟨'/', _, rfl, .inl rfl⟩
  | block b => exact ⟨'*', _, rfl, .inr rfl⟩

/-- The first comment of a gap has only white space before it. -/
theorem gap_first {com : Bool} {rest g : Str} {gs : List (Str × Str)} (h : Gap com rest g gs) :
    ∀ q qs, gs = q :: qs → (∀ x ∈ q.1, White x) ∧ ∃ k r, g = q.1 ++ '/' :: k :: r ∧ (k = '/' ∨ k = '*') := by
  induction h with
  | nil => intro q qs h; simp at h
  | space c g cs hc _ ih =>
    intro q qs h
    cases cs with
    | nil => simp at h
    | cons a cs =>
      simp only [List.map_cons, List.cons.injEq] at h
      obtain ⟨rfl, _⟩ := h
      obtain ⟨h1, k, r, rfl, h2⟩ := ih a cs rfl
      refine ⟨?_, k, r, by simp, h2⟩
      intro x hx
      rcases List.mem_cons.1 hx with rfl | hx
      · exact hc
      · exact h1 x hx
  | comment raw text g cs _ hc _ _ =>
    intro q qs h
    simp only [List.cons.injEq] at h
    obtain ⟨rfl, _⟩ := h
    obtain ⟨k, r, rfl, h⟩ := comment_start hc
    exact ⟨by simp, k, r ++ g, by simp, h⟩

theorem semiComment_of {l l1 l2 : Lexer} {t : Tok} {x : Verif.Comment} (h1 : t.text = c!";") (h2 : Took l [t] l1)
    (h3 : t.pos = l1.pos.p) (h4 : l1.token = .semicolon) (hi : Inline l1 (some x) l2) : SemiComment l.scanner.inp := by
  obtain ⟨_, ⟨c, k1, k2, _, k3⟩, _⟩ := h2
  have k4 := (k3 (real_of h4)).1
  clear k3
  obtain ⟨g, gs, j1, _, j3, j4, _⟩ := hi.read x rfl
  cases gs with
  | nil => simp at j4
  | cons q qs =>
    obtain ⟨m1, k, r, rfl, m2⟩ := gap_first j3 q qs rfl
    simp only [List.map_cons, List.cons.injEq] at j4
    have e1 : x.info.pos = (l1.scanner.pos.advanceAll q.1).p := by rw [j4.1]; rfl
    have e2 := (hi.some x rfl).1
    cases k4 with
    | cons g0 cs w ts c _ _ _ _ k4 =>
      cases k4 with
      | nil =>
        simp only at h1 h3
        subst h1
        refine ⟨g0, q.1, k, r ++ l2.scanner.inp, ?_, fun y hy => ⟨m1 y hy, ?_⟩, m2⟩
        · rw [k1, j1]; simp
        · rintro rfl
          rw [e1, ← h3, k2, advanceAll_line, advanceAll_line, advanceAll_line] at e2
          have : 0 < q.1.count '\n' := List.count_pos_iff.2 hy
          simp only [List.append_nil, List.count_append] at e2
          omega

theorem mild_protoStmt {cfg : Cfg} {cs : List Verif.Comment} {t : Token} {l : Lexer} (hg : Good l)
    (hb : Mild l.scanner.inp) (hf : l.scanner.inp.length < cfg.fuel) :
    Sat (fun _ => False) (fun r l' => FileStmtOut false cfg cs l r l' ∧ Shorter l l') (fun _ _ => True)
      (protoStmt cfg cs t l) := by
  rcases hb with hb | hb
  · have h1 := protoStmt_sat (calm := false) (H := (· = .fuel)) (cfg := cfg) (cs := cs) (t := t) hg (.inl rfl)
    have h2 := fin_protoStmt (cfg := cfg) (cs := cs) (t := t) hg hb hf
    rw [protoStmtK_false] at h1
    generalize protoStmt cfg cs t l = r at h1 h2
    cases r with
    | ok a l' => exact ⟨h1, h2⟩
    | err e l' => trivial
    | halt k => exact h2 h1
  · have h1 := protoStmt_sat (calm := false) (H := fun _ => False) (cfg := cfg) (cs := cs) (t := t) hg (.inr ⟨hb, hf⟩)
    rw [protoStmtK_false] at h1
    refine h1.mono (fun r l' h => ⟨h, ?_⟩) (fun _ _ _ => trivial)
    rcases h.2 with ⟨_, h2, h3, _, _, ts, h4, h5⟩ | ⟨_, x, _, h2, _⟩
    · exact Shorter.of (h5 (.inl (.inl hb))).took (toks_ne h4 h2 h3)
    · exact Shorter.of h2 (by simp)

theorem mild_protoLoop {H : Halt → Prop} {cfg : Cfg} (n : Nat) :
    ∀ {l : Lexer} {vs : List Visitee}, Good l → Mild l.scanner.inp → l.scanner.inp.length < n →
    l.scanner.inp.length < cfg.fuel → (SemiComment l.scanner.inp → H .panic) →
    Sat H (fun _ _ => True) (fun _ _ => True) (protoLoop cfg n vs l) := by
  induction n with
  | zero => intro l vs _ _ h; omega
  | succ n ih =>
    intro l vs hg hb hn hf hp
    unfold protoLoop
    refine stepI_comments (TookI.refl hg) (fun cs l1 ht hnc => ?_)
    simp only [List.nil_append] at ht
    refine sat_isEOF ht.good ?_
    have ht := ht.back (back_putBack ht.good {})
    refine sat_ite (fun h => trivial) (fun h => ?_)
    generalize putBack {} l1 = l1' at ht
    refine sat_peekKeyword ht.good ?_
    have ht := ht.back (back_putBack ht.good .kw)
    generalize (nextSt Mode.kw l1').token = t
    generalize putBack .kw l1' = l2 at ht
    have htk : Took l [] l2 := by simpa using ht.took
    have hl := htk.length
    have hs := mild_protoStmt (cfg := cfg) (cs := cs) (t := t) htk.good (hb.suffix htk.suffix) (by omega)
    refine Sat.bind (Sat.any hs) ?_
    rintro ⟨now, v⟩ l3 ⟨h3, h4⟩
    have h4 := h4.after htk
    refine Sat.bind (Q := fun _ l4 => Took l3 [] l4) ?_ ?_
    · rcases h3.2 with ⟨_, k1, k2, _⟩ | ⟨hr, x, k1, k2, k3, k4⟩
      · exact (maybeScan_sat h4.atEnd.good k1 k2).mono (by rintro _ _ ⟨o, _, ho⟩; exact ho.nil) (fun _ _ h => h)
      · simp only [Prod.mk.injEq] at hr
        obtain ⟨rfl, rfl⟩ := hr
        unfold maybeScanInlineComment
        refine Sat.bind (parseInline_sat h4.atEnd.good) (fun c l4 hi => ?_)
        cases c with
        | none => exact hi.nil
        | some c => exact hp ((semiComment_of k1 k2 k3 k4 hi).of_suffix htk.suffix)
    rintro v' l4 h5
    have h5 := h4.before h5
    have := h5.lt
    exact ih h5.atEnd.good (hb.suffix h5.atEnd.suffix) (by omega) (by omega)
      (fun h => hp (h.of_suffix h5.atEnd.suffix))

theorem mild_parseProto {H : Halt → Prop} {cfg : Cfg} {l : Lexer} (hg : Good l) (hb : Mild l.scanner.inp)
    (hf : l.scanner.inp.length < cfg.fuel) (hp : SemiComment l.scanner.inp → H .panic) :
    Sat H (fun _ _ => True) (fun _ _ => True) (parseProto cfg l) := by
  unfold parseProto
  refine Sat.bind (parseBOM_sat hg) ?_
  rintro - l1 ⟨bom, -, ht⟩
  refine stepI_comments ht (fun cs l2 ht2 hnc => ?_)
  refine Sat.bind' (syntaxPart_sat (sm := true) ht2.good) (fun _ _ _ => trivial) ?_
  rintro s l3 ⟨_, ss, _, ht3, _⟩
  have ht := ht2.trans ht3
  refine Sat.bind' (editionPart_sat (sm := true) ht.good) (fun _ _ _ => trivial) ?_
  rintro e l4 ⟨_, es, _, ht4, _⟩
  have ht := (ht.trans ht4).took
  have hl := ht.length
  unfold parseProtoBody
  refine Sat.bind (mild_protoLoop _ ht.good (hb.suffix ht.suffix) (by omega) (by omega)
    (fun h => hp (h.of_suffix ht.suffix))) ?_
  intro _ _ _
  rw [sat_position]
  trivial

end Parser
end Verif
