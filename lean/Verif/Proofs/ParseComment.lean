import Verif.Proofs.LexerParse

/-!
# Comments: what comment.go and inlineComment.go read
-/

set_option backward.isDefEq.respectTransparency false
set_option backward.dsimp.instances true

namespace Verif
open Spec Scanner Lexer
open M (bind_ok run_get)

namespace Parser

theorem parseComment_eq {l : Lexer} (hg : Good l) :
    parseComment l = if (nextSt .commentMode l).token = .comment then
        .ok (mkComment (nextSt .commentMode l).text (nextSt .commentMode l).pos)
          (nextSt .commentMode l)
      else .err (.single (nextSt .commentMode l).pos.p "comment"
          (.token (nextSt .commentMode l).text (nextSt .commentMode l).token
            (nextSt .commentMode l).pos.p)) (putBack .commentMode l) := by
  unfold parseComment
  refine (bind_ok (run_nextWith hg _)).trans ?_
  refine (bind_ok (run_tok _)).trans ?_
  by_cases h : (nextSt .commentMode l).token = .comment
  · rw [if_pos h, if_pos h]; rfl
  · rw [if_neg h, if_neg h]
    refine (bind_ok (m := M.attempt _) (a := .error _) (s' := nextSt .commentMode l) rfl).trans ?_
    refine (bind_ok (unNext_nextSt _ _)).trans ?_
    rfl

/-- Between `l` and `l'` there are exactly the comments `cs`. -/
def CommentsRead (l : Lexer) (cs : List Comment) (l' : Lexer) : Prop :=
  ∃ g gs, l.scanner.inp = g ++ l'.scanner.inp ∧ l'.scanner.pos = l.scanner.pos.advanceAll g ∧
    Gap true l'.scanner.inp g gs ∧
    cs = gs.map (fun p => mkComment p.2 (l.scanner.pos.advanceAll p.1)) ∧ Recs l [] l'

theorem commentsRead_refl (l : Lexer) : CommentsRead l [] l := ⟨[], [], rfl, rfl, .nil, rfl, .refl l⟩

theorem gap_append' {rest g1 g2 : Str} {cs1 cs2 : List (Str × Str)}
    (h1 : Gap true (g2 ++ rest) g1 cs1) (h2 : Gap true rest g2 cs2) :
    Gap true rest (g1 ++ g2) (cs1 ++ cs2.map (fun p => (g1 ++ p.1, p.2))) := by
  induction h1 with
  | nil => simpa using h2
  | space c g cs hc _ ih =>
    have := Gap.space c _ _ hc ih
    simpa [Function.comp_def] using this
  | comment raw text g cs hm hc _ ih =>
    have := Gap.comment raw text _ _ hm (by simpa using hc) ih
    simpa [Function.comp_def] using this

theorem CommentsRead.trans {l l1 l2 : Lexer} {as bs : List Comment} (h1 : CommentsRead l as l1)
    (h2 : CommentsRead l1 bs l2) : CommentsRead l (as ++ bs) l2 := by
  obtain ⟨g1, c1, i1, p1, y1, rfl, r1⟩ := h1
  obtain ⟨g2, c2, i2, p2, y2, rfl, r2⟩ := h2
  rw [i2] at y1
  refine ⟨g1 ++ g2, _, by rw [i1, i2]; simp, by rw [p2, p1]; simp, gap_append' y1 y2, ?_, r1.trans r2⟩
  simp [p1]

theorem CommentsRead.took {l l' : Lexer} {cs : List Comment} (h : CommentsRead l cs l') (hg : Good l')
    (hr : ¬ Real l'.token) : Took l [] l' := by
  obtain ⟨g, gs, i, p, y, _, r⟩ := h
  exact ⟨hg, ⟨g, i, p, .nil _ _ y, fun h => absurd h hr⟩, r⟩

theorem gap_false_true {rest g : Str} {cs : List (Str × Str)} (h : Gap false rest g cs) :
    cs = [] ∧ Gap true rest g [] := by
  generalize hb : false = b at h
  induction h with
  | nil => exact ⟨rfl, .nil⟩
  | space c g cs hc _ ih =>
    obtain ⟨rfl, h'⟩ := ih
    exact ⟨rfl, by simpa using Gap.space (com := true) c g [] hc h'⟩
  | comment _ _ _ _ hm => simp [← hb] at hm

theorem commentsRead_next {l : Lexer} (hg : Good l) (h : (nextSt .commentMode l).token = .comment) :
    CommentsRead l [mkComment (nextSt .commentMode l).text (nextSt .commentMode l).pos]
      (nextSt .commentMode l) := by
  obtain ⟨⟨_, ⟨c, h1, h2, _⟩, hrec⟩, g, raw, cs, h3, h4, h5, h6⟩ := nextComment_took hg h
  obtain ⟨rfl, h7⟩ := gap_false_true h4
  have hc : c = g ++ raw := by
    have h3' : l.scanner.inp = (g ++ raw) ++ (nextSt .commentMode l).scanner.inp := by rw [h3]; simp
    exact List.append_cancel_right (h1.symm.trans h3')
  have h8 := Gap.comment (com := true) (rest := (nextSt .commentMode l).scanner.inp) raw _ [] []
    rfl (by simpa using h5) Gap.nil
  simp only [List.append_nil, List.map_nil] at h8
  have := gap_append' h7 h8
  exact ⟨g ++ raw, _, by rw [h3]; simp, by rw [h2, hc], this, by simp [h6], hrec⟩

theorem comment_length {rest raw text : Str} (h : Spec.Comment rest raw text) : 0 < raw.length := by
  cases h <;> simp

theorem parseCommentsLoop_sat {H : Halt → Prop} {E : Err → Lexer → Prop} (n : Nat) :
    ∀ {l : Lexer} {acc : List Comment}, Good l → l.scanner.inp.length < n →
    Sat H (fun r l' => ∃ cs, r = acc ++ cs ∧ CommentsRead l cs l' ∧ Good l' ∧ ¬ Real l'.token ∧
        (nextSt .commentMode l').token ≠ .comment)
      E (parseCommentsLoop n acc l) := by
  induction n with
  | zero => intro _ _ _ h; omega
  | succ n ih =>
    intro l acc hg hn
    unfold parseCommentsLoop
    have hr := parseComment_eq hg
    by_cases h : (nextSt .commentMode l).token = .comment
    · rw [if_pos h] at hr
      have h1 := commentsRead_next hg h
      have h2 : (nextSt .commentMode l).scanner.inp.length < l.scanner.inp.length := by
        obtain ⟨_, g, raw, cs, h3, _, h5, _⟩ := nextComment_took hg h
        have := comment_length h5
        rw [h3]
        simp
        omega
      show Sat H _ E (M.bind (M.attempt parseComment) _ l)
      unfold M.bind M.attempt
      rw [hr]
      refine (ih (good_next hg _) (by omega)).mono ?_ (fun _ _ h => h)
      rintro r l' ⟨cs, h3, h4, h5⟩
      exact ⟨_, by rw [h3]; simp, h1.trans h4, h5⟩
    · rw [if_neg h] at hr
      show Sat H _ E (M.bind (M.attempt parseComment) _ l)
      unfold M.bind M.attempt
      rw [hr]
      exact ⟨[], by simp, (⟨[], [], rfl, rfl, .nil, rfl, recs_putBack _ l⟩ : CommentsRead l [] (putBack .commentMode l)),
        good_putBack hg _, fun h => absurd rfl h.1, h⟩

theorem parseComments_sat {H : Halt → Prop} {E : Err → Lexer → Prop} {l : Lexer} (hg : Good l) :
    Sat H (fun cs l' => CommentsRead l cs l' ∧ Good l' ∧ ¬ Real l'.token ∧ (nextSt .commentMode l').token ≠ .comment)
      E (parseComments l) := by
  unfold parseComments
  rw [sat_bound]
  refine (parseCommentsLoop_sat _ hg (by omega)).mono ?_ (fun _ _ h => h)
  rintro r l' ⟨cs, h3, h4⟩
  simp only [List.nil_append] at h3
  subst h3
  exact h4

theorem parseInlineComment_sat {H : Halt → Prop} {E : Err → Lexer → Prop} {l : Lexer} (hg : Good l) :
    Sat H (fun c l' => Took l [] l' ∧ InText l l'.pos.p ∧
        ∀ x, c = some x → CommentsRead l [x] l' ∧ l.pos.p.line = x.info.pos.line)
      E (parseInlineComment l) := by
  unfold parseInlineComment
  rw [sat_position]
  have hr := parseComment_eq hg
  show Sat H _ E (M.bind (M.attempt parseComment) _ l)
  unfold M.bind M.attempt
  rw [hr]
  by_cases h : (nextSt .commentMode l).token = .comment
  · simp only [h, if_true]
    refine sat_ite (fun h1 => ?_) (fun h1 => ?_)
    · refine sat_unNext ?_
      exact ⟨took_putBack hg _, inText_here l, by simp⟩
    · refine ⟨(nextComment_took hg h).1, inText_next l _, ?_⟩
      rintro x hx
      simp only [Option.some.injEq] at hx
      subst hx
      exact ⟨commentsRead_next hg h, by simpa using h1⟩
  · simp only [h, if_false]
    exact ⟨took_putBack hg _, inText_here l, by simp⟩

end Parser

section
variable {α : Type} {H : Halt → Prop} {Q : α → Lexer → Prop} {E : Err → Lexer → Prop}

theorem step_comments {f : List Comment → P α} {l : Lexer} {l0 : Lexer} {ts : List Tok}
    (ht : Took l0 ts l)
    (h : ∀ cs l', Took l0 ts l' → Parser.CommentsRead l cs l' → Sat H Q E (f cs l')) :
    Sat H Q E ((Parser.parseComments >>= f) l) := by
  refine Sat.bind (Parser.parseComments_sat ht.good) ?_
  rintro cs l' ⟨h1, h2, h3, _⟩
  exact h cs l' (ht.nil_trans (h1.took h2 h3)) h1

theorem step_inline {f : Option Comment → P α} {l : Lexer} {l0 : Lexer} {ts : List Tok}
    (ht : Took l0 ts l)
    (h : ∀ c l', Took l0 ts l' → InText l l'.pos.p → (∀ x, c = some x →
      Parser.CommentsRead l [x] l' ∧ l.pos.p.line = x.info.pos.line) → Sat H Q E (f c l')) :
    Sat H Q E ((Parser.parseInlineComment >>= f) l) := by
  refine Sat.bind (Parser.parseInlineComment_sat ht.good) ?_
  rintro c l' ⟨h1, h2, h3⟩
  exact h c l' (ht.nil_trans h1) h2 h3

end

end Verif
