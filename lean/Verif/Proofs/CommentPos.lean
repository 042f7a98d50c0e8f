import Verif.Proofs.RawLex
import Verif.Proofs.Advance

/-!
# Where a comment ends, for every text

If a scan returns a comment, the scanner stands behind the text of the comment, counted from the position that was
returned; this holds with NUL in the text, too.
-/

set_option backward.isDefEq.respectTransparency false
set_option backward.dsimp.instances true

namespace Verif.Scanner
open Spec

variable {s : Scanner} {c : Char}

theorem at_read (h : Head s c) : Out (fun a s' => a = c ∧ s'.pos = s.pos.advance c) (read s) := by
  obtain ⟨hc, r, h⟩ := h
  intro a s' e
  simp only [read, h, if_neg hc] at e
  cases e; exact ⟨rfl, rfl⟩

theorem at_peek : Out (fun a s' => s'.pos = s.pos ∧ (a = eof ∨ Head s' a)) (peek s) := by
  intro a s' e
  cases hi : s.inp with
  | nil =>
    simp [peek, bind, M.bind, read, hi, pure, M.pure] at e
    obtain ⟨rfl, rfl⟩ := e
    exact ⟨rfl, .inl rfl⟩
  | cons d r =>
    by_cases hd : d = eof
    · simp [peek, bind, M.bind, read, hi, pure, M.pure, hd] at e
      obtain ⟨rfl, rfl⟩ := e
      exact ⟨rfl, .inl rfl⟩
    · simp [peek, bind, M.bind, read, hi, pure, M.pure, hd, M.modify, unread] at e
      obtain ⟨rfl, rfl⟩ := e
      exact ⟨rfl, .inr ⟨hd, _, rfl⟩⟩

theorem at_isEOF : Out (fun b s' => s'.pos = s.pos ∧ (b = false → ∃ c, Head s' c)) (isEOF s) := by
  unfold isEOF
  refine out_bind at_peek fun a s' h => out_pure ⟨h.1, fun e => ?_⟩
  rcases h.2 with rfl | h
  · simp at e
  · exact ⟨a, h⟩

/-- The scanner stands behind the literal, counted from `b`. -/
def Past (b : SPos) (lit : Str) (s : Scanner) : Prop := ∃ more, s.pos = b.advanceAll (lit ++ more)

theorem at_lineComment (b : SPos) (n : Nat) : ∀ {s : Scanner} {ch : Char} {lit : Str},
    s.pos = b.advanceAll (lit ++ [ch]) → Out (Past b) (lineCommentLoop n ch lit s) := by
  induction n with
  | zero => intro s ch lit _; exact out_stop
  | succ n ih =>
    intro s ch lit h
    unfold lineCommentLoop
    refine out_ite (fun _ => ?_) fun _ => out_pure ⟨[ch], h⟩
    refine out_bind at_isEOF fun e s' h' => out_ite (fun _ => out_pure ⟨[], ?_⟩) fun he => ?_
    · rw [h'.1, h]; simp
    · obtain ⟨c, hc⟩ := h'.2 (by simpa using he)
      refine out_bind (at_read hc) fun d s2 hd => ih ?_
      obtain ⟨rfl, hd⟩ := hd
      rw [hd, h'.1, h]
      simp

theorem at_blockComment (b : SPos) (n : Nat) : ∀ {s : Scanner} {ch : Char} {lit : Str},
    s.pos = b.advanceAll (lit ++ [ch]) → Out (Past b) (blockCommentLoop n ch lit s) := by
  induction n with
  | zero => intro s ch lit _; exact out_stop
  | succ n ih =>
    intro s ch lit h
    unfold blockCommentLoop
    refine out_bind at_isEOF fun e s' h' => out_ite (fun _ => out_unexpected) fun he => ?_
    obtain ⟨c, hc⟩ := h'.2 (by simpa using he)
    refine out_bind (at_read hc) fun d s2 hd => ?_
    obtain ⟨rfl, hd⟩ := hd
    refine out_bind at_peek fun x s3 hx => ?_
    have h3 : s3.pos = b.advanceAll (lit ++ [ch] ++ [d]) := by rw [hx.1, hd, h'.1, h]; simp
    refine out_ite (fun hh => ?_) fun _ => ih h3
    have hx := hx.2.resolve_left (by rw [hh.2]; decide)
    refine out_bind (at_read hx) fun y s4 hy => out_pure ⟨[], ?_⟩
    obtain ⟨rfl, hy⟩ := hy
    rw [hy, h3]
    simp

theorem at_comment (h : Head s '/') : Out (Past s.pos) (scanComment s) := by
  unfold scanComment
  refine out_bind (at_read h) fun c s1 h1 => ?_
  obtain ⟨rfl, h1⟩ := h1
  refine out_bind (R := fun a s' => a ≠ eof → s'.pos = s1.pos.advance a) ?_ fun ch s2 h2 => out_bound fun n => ?_
  · intro a s' e ha
    cases hi : s1.inp with
    | nil => simp [read, hi] at e; exact absurd e.1.symm ha
    | cons d r =>
      by_cases hd : d = eof
      · simp [read, hi, hd] at e; exact absurd e.1.symm ha
      · simp only [read, hi, if_neg hd] at e
        cases e; rfl
  · have key : ch ≠ eof → s2.pos = s.pos.advanceAll (['/'] ++ [ch]) := fun hc => by rw [h2 hc, h1]; rfl
    refine out_ite (fun hc => at_lineComment _ _ (key (by rw [hc]; decide))) fun _ =>
      out_ite (fun hc => at_blockComment _ _ (key (by rw [hc]; decide))) fun _ => out_unexpected

/-- If the token is a comment, the scanner stands behind its text. -/
def PastComment (r : Scanned) (s : Scanner) : Prop := r.token = .comment → Past r.pos r.text s

theorem keyword_not_comment (x : Str) : asKeywordToken x ≠ .comment := by
  unfold asKeywordToken
  split
  · next kv h =>
    have hm := List.mem_of_find?_eq_some h
    have : ∀ kv ∈ keywordTable, kv.2 ≠ .comment := by decide
    exact this kv hm
  · simp

theorem misc_not_comment (ch : Char) : asMiscToken ch ≠ .comment := by
  have ite : ∀ {p : Prop} [Decidable p] {a b : Token}, a ≠ .comment → b ≠ .comment →
      (if p then a else b) ≠ .comment := by
    intro p _ a b h1 h2
    split <;> assumption
  unfold asMiscToken
  repeat refine ite (by simp) ?_
  simp

theorem at_scanLoop (n : Nat) : ∀ {s : Scanner}, Out PastComment (scanLoop n s) := by
  induction n with
  | zero => exact out_stop
  | succ n ih =>
    intro s
    unfold scanLoop
    refine out_bind at_peek fun ch s hch => ?_
    obtain ⟨_, hch⟩ := hch
    refine out_bind (R := fun a s' => a = s ∧ s' = s) (by intro a s' e; cases e; exact ⟨rfl, rfl⟩) fun st s' es => ?_
    obtain ⟨rfl, rfl⟩ := es
    have no : ∀ {t : Token} {x : Str} {p : SPos} {e : Option Err} {s'' : Scanner}, t ≠ .comment →
        PastComment { token := t, text := x, pos := p, error := e } s'' := fun h h' => absurd h' h
    refine out_ite (fun _ => out_step fun _ _ => ih) fun _ => ?_
    refine out_bind (R := fun _ s1 => s1.pos = s'.pos ∧ (ch = eof ∨ Head s1 ch)) ?_ fun b s1 hs => ?_
    · intro b s1 e
      refine ⟨(at_isEOF b s1 e).1, ?_⟩
      rcases hch with rfl | hch
      · exact .inl rfl
      · exact .inr (out_isEOF_head hch b s1 e).2
    obtain ⟨hp, hch⟩ := hs
    refine out_ite (fun _ => out_pure (no (by simp))) fun _ => ?_
    refine out_ite (fun _ => out_step fun x _ => out_ite (fun _ => out_pure (no (by simp))) fun _ =>
      out_ite (fun _ => out_pure (no (by simp))) fun _ =>
      out_ite (fun _ => out_pure (no (keyword_not_comment x))) fun _ => out_pure (no (by simp))) fun _ => ?_
    refine out_ite (fun h => ?_) fun _ => ?_
    · subst h
      have hh : Head s1 '/' := hch.resolve_left (by decide)
      refine out_bind (out_attempt (at_comment hh)) fun r s2 hr => ?_
      cases r with
      | error e => exact out_pure (no (by simp))
      | ok lit =>
        have hr := hr lit rfl
        refine out_bind (R := fun _ s3 => s3.pos = s2.pos) (by intro a s' e; cases e; rfl) fun _ s3 h3 => ?_
        refine out_ite (fun _ => out_pure fun _ => ?_) fun _ => ih
        obtain ⟨more, hr⟩ := hr
        exact ⟨more, by rw [h3, hr, hp]⟩
    refine out_ite (fun _ => out_step fun r s2 => ?_) fun _ => ?_
    · cases r with
      | error e => exact out_pure (no (by simp))
      | ok lit => exact out_pure (no (by simp))
    refine out_ite (fun h => ?_) fun _ => ?_
    · have hh : Head s1 ch := by
        rcases hch with rfl | hch
        · exact absurd h.1 (by decide)
        · exact hch
      refine out_bind (out_attempt (out_number hh h.1)) fun r s hr => ?_
      cases r with
      | error e => exact out_pure (no (by simp))
      | ok lit =>
        obtain ⟨t, x⟩ := lit
        rcases hr _ rfl with ⟨rfl, hx⟩ | rfl
        · exact out_pure (no (by simp))
        · exact out_pure (no (by simp))
    · exact out_step fun _ _ => out_pure (no (misc_not_comment ch))

theorem at_scan : Out PastComment (scan s) := by
  unfold scan
  exact out_step fun _ _ => out_bound fun n => at_scanLoop n

end Verif.Scanner

namespace Verif.Lexer
open Scanner (Past)

theorem at_nextWith (m : Mode) (l : Lexer) :
    Out (fun _ l' => l'.token = .comment → Past l'.pos l'.text l'.scanner) (nextWith m l) := by
  intro a l' e
  simp only [nextWith, nextCur] at e
  cases h : Scanner.scan { l.scanner with mode := m } with
  | ok r sc =>
    have := Scanner.at_scan r sc h
    rw [h] at e; cases e; exact this
  | err _ _ => rw [h] at e; cases e
  | halt _ => rw [h] at e; cases e

end Verif.Lexer
