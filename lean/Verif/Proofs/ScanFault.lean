import Verif.Proofs.LexFacts
import Verif.Proofs.LexGrammar
import Verif.Spec.Expect

/-!
# What the errors of a scan say they expected
-/

set_option backward.isDefEq.respectTransparency false
set_option backward.dsimp.instances true

namespace Verif.Scanner
open Spec

/-- The fault of a piece of a text. -/
def Off (t : Str) (p : Piece) : Prop :=
  ∀ e r, p.2 = some (e, r) → ∃ rest, t = p.1 ++ rest ∧ ScanFault p.1 rest e r

theorem hd_headD (t : Str) : hd t = t.headD endRune := by cases t <;> rfl

theorem scanFault_after {a b rest : Str} {e : String} {r : Char} (h : ScanFault b rest e r) :
    ScanFault (a ++ b) rest e r := by
  cases h with
  | slash c _ h1 h2 h3 => exact .slash (a ++ c) _ (by simp [h1]) h2 h3
  | slashEnd c h1 h2 => exact .slashEnd (a ++ c) (by simp [h1]) h2
  | comment h => exact .comment h
  | digit _ h1 h2 => exact .digit _ h1 h2
  | hex _ h1 h2 => exact .hex _ h1 h2
  | str _ h1 h2 => exact .str _ h1 h2

theorem Off.after {t u a : Str} {p : Piece} (h : Off u p) (ht : t = a ++ u) : Off t (p.after a) := by
  intro e r he
  obtain ⟨rest, h1, h2⟩ := h e r he
  exact ⟨rest, by rw [ht, h1]; simp [Piece.after], scanFault_after h2⟩

theorem off_none {t a : Str} : Off t (a, none) := by intro e r h; simp at h

theorem off_dec (t : Str) : Off t (decPiece t) := by
  unfold decPiece
  split
  · exact off_none
  · next h =>
    intro e r he
    simp only [Option.some.injEq, Prod.mk.injEq] at he
    obtain ⟨rfl, rfl⟩ := he
    exact ⟨t, rfl, .digit _ (hd_headD t) (fun hm => h (mem_decimals.1 hm))⟩

theorem hd_tail {t : Str} {c : Char} (h : hd t = c) (hc : c ≠ eof) : t = c :: t.tail := by
  cases t with
  | nil => exact absurd h.symm hc
  | cons d t => simp only [hd_cons] at h; subst h; rfl

theorem off_exp {t : Str} (ht : t ≠ []) : Off t (expPiece t) := by
  obtain ⟨c, r, rfl⟩ := List.exists_cons_of_ne_nil ht
  unfold expPiece
  split
  · next h =>
    refine (off_dec _).after ?_
    cases r with
    | nil => exact absurd h (by simp; decide)
    | cons d r => rfl
  · exact (off_dec _).after rfl

theorem isExp_ne_nil {t : Str} (h : isExp (hd t) = true) : t ≠ [] := by
  rintro rfl
  exact absurd h (by decide)

theorem off_optExp (t : Str) : Off t (optExpPiece t) := by
  unfold optExpPiece
  split
  · next h => exact off_exp (isExp_ne_nil h)
  · exact off_none

theorem off_frac (t : Str) : Off t (fracPiece t) :=
  (off_optExp _).after List.takeWhile_append_dropWhile.symm

theorem off_fracNoOmit (t : Str) : Off t (fracNoOmitPiece t) := by
  unfold fracNoOmitPiece
  split
  · exact (off_optExp _).after List.takeWhile_append_dropWhile.symm
  · exact off_dec t

theorem off_num {t : Str} (ht : t ≠ []) : Off t (numPiece t).2 := by
  obtain ⟨c, r, rfl⟩ := List.exists_cons_of_ne_nil ht
  unfold numPiece
  simp only [hd_cons, List.tail_cons]
  split
  · next h =>
    have hr : r = hd r :: r.tail := by
      rcases h.2 with h | h <;> exact hd_tail rfl (by rw [h]; decide)
    split
    · exact off_none
    · next h2 =>
      intro e x he
      simp only [Option.some.injEq, Prod.mk.injEq] at he
      obtain ⟨rfl, rfl⟩ := he
      exact ⟨r.tail, by simp [← hr], .hex _ (hd_headD _) (fun hm => h2 (mem_hexes.1 hm))⟩
  split
  · exact (off_fracNoOmit _).after rfl
  split
  · next h => exact (off_frac _).after (by rw [h, List.cons_append, List.singleton_append, ← hd_tail h (by decide)])
  split
  · next h => exact (off_exp (isExp_ne_nil h)).after rfl
  split
  · exact off_none
  split
  · next h =>
    refine (off_frac _).after ?_
    rw [List.append_assoc, List.singleton_append, ← hd_tail h (by decide)]
    simp
  split
  · next h => exact (off_exp (isExp_ne_nil h)).after (by simp)
  · exact off_none

theorem off_str {t : Str} (ht : t ≠ []) : Off t (strPiece t) := by
  obtain ⟨c, r, rfl⟩ := List.exists_cons_of_ne_nil ht
  unfold strPiece
  split
  · exact off_none
  · intro e x he
    simp only [hd_cons, List.tail_cons, Option.some.injEq, Prod.mk.injEq] at he
    obtain ⟨rfl, rfl⟩ := he
    refine ⟨r.dropWhile (· ≠ '\n'), by simp, .str _ (hd_headD _) ?_⟩
    cases h : r.dropWhile (· ≠ '\n') with
    | nil => exact .inl rfl
    | cons d r' =>
      right
      have := List.head_dropWhile_not (p := fun x : Char => decide (x ≠ '\n')) (l := r) (by rw [h]; simp)
      have h2 : (r.dropWhile (· ≠ '\n')).head (by rw [h]; simp) = d := by simp only [h, List.head_cons]
      rw [hd_cons, ← h2]
      simpa using this

theorem off_comment (r : Str) : Off ('/' :: r) (commentPiece ('/' :: r)).2 := by
  unfold commentPiece
  simp only [List.tail_cons]
  split
  · exact off_none
  split
  · next h =>
    split
    · exact off_none
    · intro e x he
      simp only [Option.some.injEq, Prod.mk.injEq] at he
      obtain ⟨rfl, rfl⟩ := he
      exact ⟨[], by simp, .comment rfl⟩
  · next h1 h2 =>
    intro e x he
    simp only [Option.some.injEq, Prod.mk.injEq] at he
    obtain ⟨rfl, rfl⟩ := he
    cases r with
    | nil => exact ⟨[], by simp, .slashEnd [] rfl rfl⟩
    | cons d r => exact ⟨r, rfl, .slash [] d rfl h1 h2⟩

theorem off_ofPiece {t : Str} {p : Piece} {tok : Token} {e : String} {r : Char} (h : Off t p)
    (he : (LexOut.ofPiece tok p).err = some (e, r)) :
    ∃ rest, t = (LexOut.ofPiece tok p).raw ++ rest ∧ ScanFault (LexOut.ofPiece tok p).raw rest e r := by
  obtain ⟨a, o⟩ := p
  cases o with
  | none => simp [LexOut.ofPiece] at he
  | some o =>
    simp only [LexOut.ofPiece, Option.some.injEq] at he
    subst he
    simpa [LexOut.ofPiece, LexOut.raw] using h e r rfl

theorem off_tokenAt {m : Mode} {t : Str} {e : String} {r : Char} (he : (tokenAt m t).err = some (e, r)) :
    ∃ rest, t = (tokenAt m t).raw ++ rest ∧ ScanFault (tokenAt m t).raw rest e r := by
  unfold tokenAt at he ⊢
  by_cases h0 : t = []
  · simp [h0] at he
  rw [if_neg h0] at he ⊢
  split at he
  · simp at he
  split at he
  · next h1 h2 => rw [if_neg h1, if_pos h2]; exact off_ofPiece (off_str h0) he
  split at he
  · next h1 h2 h3 => rw [if_neg h1, if_neg h2, if_pos h3]; exact off_ofPiece (off_num h0) he
  · simp at he

theorem off_lexLoop (m : Mode) (n : Nat) (t : Str) (e : String) (r : Char) (he : (lexLoop m n t).err = some (e, r)) :
    ∃ rest, t = (lexLoop m n t).raw ++ rest ∧ ScanFault (lexLoop m n t).raw rest e r := by
  induction n generalizing t with
  | zero => simp [lexLoop] at he
  | succ n ih =>
    unfold lexLoop at he ⊢
    split at he
    · next h =>
      rw [if_pos h]
      cases t with
      | nil => exact absurd h (by decide)
      | cons c t =>
        obtain ⟨rest, h1, h2⟩ := ih t (by simpa using he)
        refine ⟨rest, ?_, ?_⟩
        · simp only [LexOut.push_raw, hd_cons, List.tail_cons]
          rw [List.append_assoc, ← h1]
          rfl
        · simp only [LexOut.push_raw, hd_cons, List.tail_cons]
          exact scanFault_after h2
    · next h =>
      rw [if_neg h]
      split at he
      · next hs =>
        rw [if_pos hs]
        have ht := hd_tail hs (by decide)
        split at he
        · next o ho =>
          simp only [Option.some.injEq] at he
          subst he
          have := off_comment t.tail
          rw [← ht] at this
          simpa [LexOut.raw] using this e r ho
        · next ho =>
          split at he
          · simp at he
          · next hm =>
            rw [if_neg hm]
            simp only [LexOut.push_err] at he
            obtain ⟨rest, h1, h2⟩ := ih _ he
            have hp : (commentPiece t).2.1 <+: t := by
              obtain ⟨a, x, h5, h6⟩ := commentPiece_prefix t.tail
              rw [← ht] at h5
              exact ⟨x, by rw [h5, List.cons_append, ← h6, ← ht]⟩
            obtain ⟨u, hu⟩ := hp
            have hd : t.drop (commentPiece t).2.1.length = u := by
              have := congrArg (List.drop (commentPiece t).2.1.length) hu
              rw [List.drop_left] at this
              exact this.symm
            refine ⟨rest, ?_, ?_⟩
            · show t = (LexOut.push (commentPiece t).2.1 (lexLoop m n (t.drop (commentPiece t).2.1.length))).raw ++ rest
              rw [LexOut.push_raw, List.append_assoc, ← h1, hd, hu]
            · show ScanFault (LexOut.push (commentPiece t).2.1
                (lexLoop m n (t.drop (commentPiece t).2.1.length))).raw rest e r
              rw [LexOut.push_raw]
              exact scanFault_after h2
      · next hs => rw [if_neg hs]; exact off_tokenAt he

theorem off_lex {m : Mode} {t : Str} {e : String} {r : Char} (he : (lex m t).err = some (e, r)) :
    ScanFault (lex m t).raw (t.drop (lex m t).raw.length) e r := by
  obtain ⟨rest, h1, h2⟩ := off_lexLoop m _ t e r he
  have := congrArg (List.drop (lex m t).raw.length) h1
  rw [show lexLoop m (t.length + 1) t = lex m t from rfl, List.drop_left] at this
  rw [this]
  exact h2

end Verif.Scanner
