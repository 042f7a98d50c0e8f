import Verif.Proofs.Relate
import Verif.Proofs.ParseComment

set_option backward.isDefEq.respectTransparency false
set_option backward.dsimp.instances true

/-!
# A byte order mark in front of a text
-/

namespace Verif

open Spec Scanner Lexer
open M (bind_ok)

/-! ## Recorded comments -/

/-- `getScannedComments` on the list. -/
def dedup (cs : List Text) : List Text :=
  cs.foldl (fun u c => if !findComment u c then u ++ [c] else u) []

theorem findComment_append {u v : List Text} {c : Text} (h : findComment u c = true) :
    findComment (u ++ v) c = true := by
  unfold findComment at *
  rw [List.any_append, h, Bool.true_or]

theorem findComment_self (u : List Text) (c : Text) : findComment (u ++ [c]) c = true := by
  simp [findComment]

theorem dedup_absorb (cs u : List Text) (h : ∀ c ∈ cs, findComment u c = true) :
    cs.foldl (fun u c => if !findComment u c then u ++ [c] else u) u = u := by
  induction cs with
  | nil => rfl
  | cons c cs ih =>
    rw [List.foldl_cons, h c (by simp)]
    exact ih (fun d hd => h d (by simp [hd]))

theorem dedup_mem (cs u : List Text) :
    ∀ c, (c ∈ cs ∨ findComment u c = true) →
      findComment (cs.foldl (fun u c => if !findComment u c then u ++ [c] else u) u) c = true := by
  induction cs generalizing u with
  | nil => intro c h; exact h.resolve_left (by simp)
  | cons d cs ih =>
    intro c h
    rw [List.foldl_cons]
    refine ih _ c ?_
    by_cases hd : findComment u d = true
    · rw [hd]
      rcases h with h | h
      · rcases List.mem_cons.mp h with rfl | h
        · exact .inr hd
        · exact .inl h
      · exact .inr h
    · rw [Bool.not_eq_true] at hd
      rw [hd]
      rcases h with h | h
      · rcases List.mem_cons.mp h with rfl | h
        · exact .inr (findComment_self u _)
        · exact .inl h
      · exact .inr (findComment_append h)

theorem dedup_twice (cs : List Text) : dedup (cs ++ cs) = dedup cs := by
  unfold dedup
  rw [List.foldl_append]
  exact dedup_absorb _ _ (fun c hc => dedup_mem cs [] c (.inl hc))

theorem rel_dedup {ρ : Link} {as bs us vs : List Text} (h : AlikeList (RText ρ) as bs)
    (hu : AlikeList (RText ρ) us vs) :
    AlikeList (RText ρ) (as.foldl (fun u c => if !findComment u c then u ++ [c] else u) us)
      (bs.foldl (fun u c => if !findComment u c then u ++ [c] else u) vs) := by
  induction h generalizing us vs with
  | nil => exact hu
  | @cons a b as bs hab _ ih =>
    rw [List.foldl_cons, List.foldl_cons, findComment_rel hu hab]
    refine ih ?_
    by_cases hf : (!findComment vs b) = true
    · rw [if_pos hf, if_pos hf]; exact Parser.alike_snoc hu hab
    · rw [if_neg hf, if_neg hf]; exact hu

/-! ## Comments met with and without comment mode -/

theorem ite_ne {p : Prop} [Decidable p] {a b x : Token} (ha : a ≠ x) (hb : b ≠ x) :
    (if p then a else b) ≠ x := by
  split
  · exact ha
  · exact hb

theorem misc_not_comment (c : Char) : asMiscToken c ≠ .comment := by
  unfold asMiscToken
  repeat refine ite_ne (by decide) ?_
  decide

theorem tokenAt_not_comment (t : Str) : (tokenAt .commentMode t).token ≠ .comment := by
  unfold tokenAt
  repeat' split
  · nofun
  · simp [wordToken, Mode.commentMode]
  · next h => simp [Mode.commentMode] at h
  · next h => simp [Mode.commentMode] at h
  · exact misc_not_comment _

theorem lex_one_comment (t : Str) :
    ((lex .commentMode t).token = .comment ∧ (lex {} t).coms = (lex .commentMode t).coms ++
        (lex {} (t.drop (lex .commentMode t).raw.length)).coms.map
          (fun c => ((lex .commentMode t).raw ++ c.1, c.2))) ∨
    ((lex .commentMode t).token ≠ .comment ∧ (lex {} t).coms = [] ∧ (lex .commentMode t).coms = []) := by
  induction t with
  | nil => exact .inr ⟨by decide, by decide, by decide⟩
  | cons c r ih =>
    by_cases hs : isSpace c = true
    · rw [lex_space hs, lex_space hs]
      rcases ih with ⟨h1, h2⟩ | ⟨h1, h2, h3⟩
      · refine .inl ⟨h1, ?_⟩
        simp [h2, Function.comp_def]
      · exact .inr ⟨h1, by simp [h2], by simp [h3]⟩
    · by_cases hc : c = '/'
      · subst hc
        cases he : (commentPiece ('/' :: r)).2.2 with
        | some e =>
          rw [lex_comment_err he, lex_comment_err he]
          exact .inr ⟨nofun, rfl, rfl⟩
        | none =>
          rw [lex_comment_tok he rfl, lex_comment_skip he rfl]
          exact .inl ⟨rfl, by simp [LexOut.raw]⟩
      · rw [lex_token (m := .commentMode) (by simpa using hs) (by simpa using hc),
          lex_token (m := {}) (by simpa using hs) (by simpa using hc)]
        exact .inr ⟨tokenAt_not_comment _, by simp, by simp⟩

theorem texts_one_comment (t : Str) (p : SPos) :
    ((lex .commentMode t).token = .comment ∧ (lex {} t).texts p = (lex .commentMode t).texts p ++
        (lex {} (t.drop (lex .commentMode t).raw.length)).texts (p.advanceAll (lex .commentMode t).raw)) ∨
    ((lex .commentMode t).token ≠ .comment ∧ (lex {} t).texts p = [] ∧ (lex .commentMode t).texts p = []) := by
  rcases lex_one_comment t with ⟨h1, h2⟩ | ⟨h1, h2, h3⟩
  · refine .inl ⟨h1, ?_⟩
    simp [LexOut.texts, h2, Function.comp_def]
  · exact .inr ⟨h1, by simp [LexOut.texts, h2], by simp [LexOut.texts, h3]⟩

theorem rel_texts {ρ : Link} (o : LexOut) {p q : SPos} (h : ρ.pos p q) :
    AlikeList (RText ρ) (o.texts p) (o.texts q) := by
  unfold LexOut.texts
  induction o.coms with
  | nil => exact .nil
  | cons c cs ih => exact .cons ⟨rfl, Parser.rel_advanceAll _ h⟩ ih

/-! ## The first comments -/

/-- The first lexer has recorded the comments ahead once already. -/
structure Abreast (ρ : Link) (done done' : List Text) (l l' : Lexer) : Prop where
  good : Good l
  good' : Good l'
  inp : l.scanner.inp = l'.scanner.inp
  pos : ρ.pos l.scanner.pos l'.scanner.pos
  comments : l.scanner.comments = (done ++ (lex {} l.scanner.inp).texts l.scanner.pos) ++ done
  comments' : l'.scanner.comments = done'
  alike : AlikeList (RText ρ) done done'

open Parser in
theorem sim_firstComments {ρ : Link} (n : Nat) {done done' : List Text} {cs cs' : List Comment} {l l' : Lexer}
    (h : Abreast ρ done done' l l') (hc : RCs ρ cs cs') :
    SimRes (RLexer ρ) (AlikeErr ρ.at) (RCs ρ) (parseCommentsLoop n cs l) (parseCommentsLoop n cs' l') := by
  induction n generalizing l l' done done' cs cs' with
  | zero => trivial
  | succ n ih =>
    have e1 := parseComment_eq h.good
    have e2 := parseComment_eq h.good'
    unfold parseCommentsLoop
    show SimRes _ _ _ (M.bind (M.attempt parseComment) _ l) (M.bind (M.attempt parseComment) _ l')
    unfold M.bind M.attempt
    rw [e1, e2]
    have ht : (nextSt .commentMode l').token = (nextSt .commentMode l).token := by
      show (lex _ l'.scanner.inp).token = (lex _ l.scanner.inp).token
      rw [h.inp]
    rw [ht]
    have hx := texts_one_comment l.scanner.inp l.scanner.pos
    rcases hx with ⟨h1, h2⟩ | ⟨h1, h2, h3⟩
    · rw [if_pos (by exact h1), if_pos (by exact h1)]
      refine ih (done := done ++ (lex .commentMode l.scanner.inp).texts l.scanner.pos)
        (done' := done' ++ (lex .commentMode l'.scanner.inp).texts l'.scanner.pos) ?_ ?_
      · refine ⟨good_next h.good _, good_next h.good' _, ?_, ?_, ?_, ?_, ?_⟩
        · simp only [nextSt, after_inp, h.inp]
        · simp only [nextSt, after_pos, h.inp]
          exact rel_advanceAll _ h.pos
        · simp only [nextSt, after_inp, after_pos, after_comments, h.comments]
          rw [h2]
          simp
        · simp only [nextSt, after_comments, h.comments']
        · rw [← h.inp]
          exact alike_append h.alike (rel_texts _ h.pos)
      · refine alike_snoc hc ?_
        simp only [nextSt, ← h.inp]
        exact rel_mkComment _ (rel_advanceAll _ h.pos)
    · rw [if_neg (by exact h1), if_neg (by exact h1)]
      refine ⟨hc, ?_⟩
      have hc1 : (putBack .commentMode l).scanner.comments = done ++ done := by
        simp only [putBack, h.comments, h2, h3, List.append_nil]
      have hc2 : (putBack .commentMode l').scanner.comments = done' := by
        simp only [putBack, h.comments', ← h.inp]
        rw [show (lex .commentMode l.scanner.inp).texts l'.scanner.pos = [] by
          have := h3
          simp only [LexOut.texts, List.map_eq_nil_iff] at this ⊢
          exact this, List.append_nil]
      refine ⟨rfl, ?_, ?_, h.pos, ⟨h.inp, ?_, h.pos, h.good.mode.trans h.good'.mode.symm, ?_⟩⟩
      · simp only [putBack, nextSt, h.inp]
      · simp only [putBack, nextSt, h.inp]
      · simp only [putBack, h.inp]
      · unfold getScannedComments
        rw [hc1, hc2]
        rw [show (done ++ done).foldl _ [] = _ from dedup_twice done]
        exact fun _ => rel_dedup h.alike .nil

/-! ## Positions behind a mark -/

/-- The end columns of lines `n`, `n - 1`, ... -/
def ColsAfterMark : Int → List Int → List Int → Prop
  | _, [], [] => True
  | n, c :: cs, d :: ds => (d = c ∨ d = c + 1 ∧ n ≤ 1) ∧ ColsAfterMark (n - 1) cs ds
  | _, _, _ => False

/-- Positions in a text and in the same text behind a byte order mark. -/
def Link.mark : Link where
  pos P Q := AfterMark P.p Q.p ∧ ColsAfterMark (P.p.line - 1) P.cols Q.cols
  shift := 3
  lines := 0
  keep := True
  advance {P Q} c h := by
    obtain ⟨⟨h1, h2, h3, h4⟩, h5⟩ := h
    unfold SPos.advance
    by_cases hc : c = '\n'
    · rw [if_pos hc, if_pos hc]
      refine ⟨⟨h1, ?_, ?_, .inl rfl⟩, ?_, ?_⟩
      · simp only [h2]; omega
      · simp only [h3]
      · simp only
        omega
      · simpa using h5
    · rw [if_neg hc, if_neg hc]
      refine ⟨⟨h1, ?_, h3, ?_⟩, h5⟩
      · simp only [h2]; omega
      · simp only; omega
  revert {P Q} c h := by
    obtain ⟨⟨h1, h2, h3, h4⟩, h5⟩ := h
    unfold SPos.revert
    by_cases hc : c = '\n'
    · rw [if_pos hc, if_pos hc]
      generalize hP : P.cols = x at h5
      generalize hQ : Q.cols = y at h5
      refine ⟨⟨h1, ?_, ?_, ?_⟩, ?_⟩
      · simp only [h2]; omega
      · simp only [h3]
      · match x, y, h5 with
        | [], [], _ => exact .inl rfl
        | c :: cs, d :: ds, h5 => exact h5.1
      · match x, y, h5 with
        | [], [], _ => trivial
        | c :: cs, d :: ds, h5 => exact h5.2
    · rw [if_neg hc, if_neg hc]
      refine ⟨⟨h1, ?_, h3, ?_⟩, h5⟩
      · simp only [h2]; omega
      · simp only; omega
  line h := by rw [h.1.line]; simp
  offset h := h.1.offset

theorem Link.mark_at : Link.mark.at = AfterMark := by
  funext p q
  refine propext ⟨?_, fun h => ⟨⟨p, []⟩, ⟨q, []⟩, ⟨h, trivial⟩, rfl, rfl⟩⟩
  rintro ⟨P, Q, h, rfl, rfl⟩
  exact h.1

/-- The converse relation. -/
def Link.symm (ρ : Link) : Link where
  pos P Q := ρ.pos Q P
  shift := - ρ.shift
  lines := - ρ.lines
  keep := ρ.keep
  advance c h := ρ.advance c h
  revert c h := ρ.revert c h
  line h := by have := ρ.line h; omega
  offset h := by have := ρ.offset h; omega

theorem Link.symm_at {ρ : Link} {p q : Position} (h : ρ.at p q) : ρ.symm.at q p := by
  obtain ⟨P, Q, h, rfl, rfl⟩ := h
  exact ⟨Q, P, h, rfl, rfl⟩

theorem alikeList_symm {α : Type} {R Q : α → α → Prop} {as bs : List α} (h : AlikeList R as bs)
    (hR : ∀ a b, R a b → Q b a) : AlikeList Q bs as := by
  induction h with
  | nil => exact .nil
  | cons h _ ih => exact .cons (hR _ _ h) ih

theorem RLexer.symm {ρ : Link} {l l' : Lexer} (h : RLexer ρ l l') : RLexer ρ.symm l' l :=
  ⟨h.token.symm, h.text.symm, h.rawText.symm, h.pos, ⟨h.scanner.inp.symm, h.scanner.raw.symm, h.scanner.pos,
    h.scanner.mode.symm, fun hk => alikeList_symm (h.scanner.comments hk) (fun _ _ h => ⟨h.literal.symm, h.pos⟩)⟩⟩

theorem rcs_symm {ρ : Link} {cs cs' : List Comment} (h : Parser.RCs ρ cs cs') : Parser.RCs ρ.symm cs' cs :=
  alikeList_symm h (fun _ _ h => ⟨h.raw.symm, ⟨Link.symm_at h.info.pos, Link.symm_at h.info.lastPos⟩⟩)

/-! ## The two runs -/

open Parser

/-- U+FEFF. -/
def markChar : Char := Char.ofNat 0xFEFF

theorem lex_mark (t : Str) : lex {} (markChar :: t) = { body := [markChar], token := .bom, text := [markChar] } := by
  rw [lex_token (by show ¬ isSpace markChar = true; decide) (by show markChar ≠ '/'; decide)]
  rfl

theorem bom_with {l : Lexer} (hg : Good l) (h : (lex {} l.scanner.inp).token = .bom) :
    parseBOM l = .ok () (nextSt {} l) := by
  unfold parseBOM
  refine (bind_ok (run_next hg)).trans ?_
  refine (bind_ok (run_tok _)).trans ?_
  rw [if_pos (by exact h)]
  rfl

theorem bom_without {l : Lexer} (hg : Good l) (h : (lex {} l.scanner.inp).token ≠ .bom) :
    parseBOM l = .ok () (putBack {} l) := by
  unfold parseBOM
  refine (bind_ok (run_next hg)).trans ?_
  refine (bind_ok (run_tok _)).trans ?_
  rw [if_neg (by exact h)]
  exact unNext_nextSt _ _

theorem parseComments_mark {t f : Str} (hn : NulFree t) (hm : (lex {} t).token ≠ .bom) :
    ∃ a b cs cs' l l', parseBOM (Lexer.new t f) = .ok () a ∧ parseBOM (Lexer.new (markChar :: t) f) = .ok () b ∧
      parseComments a = .ok cs l ∧ parseComments b = .ok cs' l' ∧ RLexer Link.mark l l' ∧ RCs Link.mark cs cs' := by
  have g1 : Good (Lexer.new t f) := ⟨hn, nofun, rfl⟩
  have g2 : Good (Lexer.new (markChar :: t) f) := ⟨by
    intro c hc
    rcases List.mem_cons.mp hc with rfl | hc
    · decide
    · exact hn c hc, nofun, rfl⟩
  have e1 := bom_without g1 hm
  have e2 := bom_with g2 (by show (lex {} (markChar :: t)).token = _; rw [lex_mark])
  have hs := parseComments_sat (H := fun _ => False) (E := fun _ _ => False) (good_putBack g1 {})
  have hx : Abreast Link.mark [] [] (putBack {} (Lexer.new t f)) (nextSt {} (Lexer.new (markChar :: t) f)) := by
    refine ⟨good_putBack g1 _, good_next g2 _, ?_, ?_, ?_, ?_, .nil⟩
    · simp only [nextSt, after_inp, putBack, Lexer.new, Scanner.new, lex_mark, LexOut.raw]
      rfl
    · simp only [nextSt, after_pos, putBack, Lexer.new, Scanner.new, lex_mark, LexOut.raw]
      exact ⟨⟨rfl, rfl, rfl, .inr ⟨rfl, Int.le_refl 1⟩⟩, trivial⟩
    · simp only [putBack, Lexer.new, Scanner.new, List.nil_append, List.append_nil]
    · simp only [nextSt, after_comments, Lexer.new, Scanner.new, lex_mark, LexOut.texts]
      rfl
  have hb : SimRes (RLexer Link.mark) (AlikeErr Link.mark.at) (RCs Link.mark) (parseComments (putBack {} (Lexer.new t f)))
      (parseComments (nextSt {} (Lexer.new (markChar :: t) f))) := by
    unfold parseComments
    show SimRes _ _ _ (M.bind Lexer.bound _ _) (M.bind Lexer.bound _ _)
    unfold M.bind Lexer.bound
    simp only [← hx.inp]
    exact sim_firstComments _ hx .nil
  refine ⟨putBack {} (Lexer.new t f), nextSt {} (Lexer.new (markChar :: t) f), ?_⟩
  cases ha : parseComments (putBack {} (Lexer.new t f)) with
  | err e s => rw [ha] at hs; exact hs.elim
  | halt h => rw [ha] at hs; exact hs.elim
  | ok cs l =>
    rw [ha] at hb
    cases hb' : parseComments (nextSt {} (Lexer.new (markChar :: t) f)) with
    | err e s => rw [hb'] at hb; exact hb.elim
    | halt h => rw [hb'] at hb; exact hb.elim
    | ok cs' l' =>
      rw [hb'] at hb
      exact ⟨cs, cs', l, l', e1, e2, rfl, rfl, hb.2, hb.1⟩

theorem runProto_eq {n : Nat} {c : ParseConfig} {t : Str} {a l : Lexer} {cs : List Comment}
    (h1 : parseBOM (Lexer.new t c.filename) = .ok () a) (h2 : parseComments a = .ok cs l) :
    runProto n c t = protoRest ⟨c.permissive, c.bodyIncludingComments, n⟩ cs l := by
  unfold runProto
  rw [parseProto_eq]
  show M.bind parseBOM _ _ = _
  unfold M.bind
  rw [h1]
  show M.bind parseComments _ _ = _
  unfold M.bind
  rw [h2]

theorem alike_mark {c : ParseConfig} {n : Nat} {t : Str} (hn : NulFree t) (hm : (lex {} t).token ≠ .bom) :
    Outcome.ofRes (runProto n c t) = .more ∧ Outcome.ofRes (runProto n c (markChar :: t)) = .more ∨
      OutcomeRel (AlikeProto AfterMark .both) (AlikeErr AfterMark) (Outcome.ofRes (runProto n c t))
        (Outcome.ofRes (runProto n c (markChar :: t))) := by
  obtain ⟨a, b, cs, cs', l, l', h1, h2, h3, h4, h5, h6⟩ := parseComments_mark (f := c.filename) hn hm
  rw [runProto_eq h1 h3, runProto_eq h2 h4, ← Link.mark_at]
  have s1 := outcome_of_sim (sim_protoRest (ρ := Link.mark) (p := c.permissive) (n := n) (n' := n) (skip := .both)
    (b := c.bodyIncludingComments) (b' := c.bodyIncludingComments) (.inl ⟨rfl, fun _ => by simp⟩) (Nat.le_refl n) trivial h6 _ _ h5)
  have s2 := outcome_of_sim (sim_protoRest (ρ := Link.mark.symm) (p := c.permissive) (n := n) (n' := n) (skip := .both)
    (b := c.bodyIncludingComments) (b' := c.bodyIncludingComments) (.inl ⟨rfl, fun _ => by simp⟩) (Nat.le_refl n) trivial
    (rcs_symm h6) _ _ h5.symm)
  rcases s1 with s1 | s1
  · refine .inl ⟨s1, ?_⟩
    rcases s2 with s2 | s2
    · exact s2
    · rw [s1] at s2
      generalize Outcome.ofRes (protoRest ⟨c.permissive, c.bodyIncludingComments, n⟩ cs' l') = o at s2
      cases s2
  · exact .inr s1

end Verif
