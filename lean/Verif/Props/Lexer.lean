import Verif.Proofs.LexerFacts
import Verif.Props.Scanner

/-!
# Look-ahead and the comment record (C02, C15)
-/

set_option backward.isDefEq.respectTransparency false
set_option backward.dsimp.instances true

namespace Verif.Props
open Scanner Spec Lexer M

/-! ## C02: looking ahead does not consume -/

/-- Two lexers about to read the same text at the same position in the same mode. -/
def SameCursor (l l' : Lexer) : Prop :=
  l'.scanner.inp = l.scanner.inp ∧ l'.scanner.pos = l.scanner.pos ∧ l'.scanner.mode = l.scanner.mode

/-- C02: `Peek` returns the token that `Next` would read and consumes nothing. -/
theorem peek_pure {l : Lexer} (h : NulFree l.scanner.inp) :
    ∃ t l' l'', Lexer.peek l = .ok t l' ∧ next l = .ok () l'' ∧ l''.token = t ∧ SameCursor l l' := by
  have h1 := nextCur_eq h
  refine ⟨(nextSt l.scanner.mode l).token, putBack l.scanner.mode l, nextSt l.scanner.mode l, ?_, h1,
    rfl, rfl, rfl, rfl⟩
  unfold Lexer.peek
  refine (bind_ok h1).trans ?_
  refine (bind_ok (run_tok _)).trans ?_
  refine (bind_ok (unNext_nextSt _ _)).trans ?_
  rfl

/-- The states `nextN` goes through. -/
def after (m : Mode) : Nat → Lexer → Lexer
  | 0, l => l
  | n + 1, l => after m n (nextSt m l)

theorem nextN_eq (n : Nat) : ∀ {l : Lexer}, NulFree l.scanner.inp →
    nextN n l = .ok () (after l.scanner.mode n l) := by
  induction n with
  | zero => intro l _; rfl
  | succ n ih =>
    intro l h
    unfold nextN
    refine (bind_ok (nextCur_eq h)).trans ?_
    exact ih (l := nextSt l.scanner.mode l) (nulFree_after _ h)

/-- The raw texts that `PeekN` remembers. -/
def raws (m : Mode) : Nat → Lexer → List Str
  | 0, _ => []
  | n + 1, l => (nextSt m l).rawText :: raws m n (nextSt m l)

theorem peekNLoop_eq (n : Nat) : ∀ {l : Lexer} (ls : List Str), NulFree l.scanner.inp →
    peekNLoop n ls l = .ok (ls ++ raws l.scanner.mode n l) (after l.scanner.mode n l) := by
  induction n with
  | zero => intro l ls _; simp [peekNLoop, raws, after]; rfl
  | succ n ih =>
    intro l ls h
    unfold peekNLoop
    refine (bind_ok (nextCur_eq h)).trans ?_
    refine (bind_ok (run_get _)).trans ?_
    rw [ih (l := nextSt l.scanner.mode l) _ (nulFree_after _ h)]
    simp only [raws, List.append_assoc, List.cons_append, List.nil_append]
    rfl

theorem unNextTo_eq {l : Lexer} {raw : Str} {p : SPos} (hp : l.scanner.pos = p.advanceAll raw) :
    ∃ l', unNextTo raw l = .ok () l' ∧ l'.scanner.inp = raw ++ l.scanner.inp ∧ l'.scanner.pos = p ∧
      l'.scanner.mode = l.scanner.mode := by
  have e := unScan_eq (s := { l.scanner with raw := raw }) (p := p) hp
  refine ⟨_, rfl, ?_⟩
  simp only [e]
  exact ⟨trivial, trivial, trivial⟩

theorem unNextAll_append (as bs : List Str) (l : Lexer) :
    unNextAll (as ++ bs) l = (unNextAll as >>= fun _ => unNextAll bs) l := by
  induction as generalizing l with
  | nil => rfl
  | cons a as ih =>
    simp only [List.cons_append, unNextAll]
    show M.bind (unNextTo a) _ l = M.bind (M.bind (unNextTo a) _) _ l
    simp only [M.bind]
    cases unNextTo a l with
    | ok _ l' => exact ih l'
    | err e l' => rfl
    | halt h => rfl

theorem unNextAll_eq (m : Mode) (n : Nat) : ∀ {l k : Lexer}, NulFree l.scanner.inp →
    SameCursor (after m n l) k → ∃ l', unNextAll (raws m n l).reverse k = .ok () l' ∧
      SameCursor l l' := by
  induction n with
  | zero => intro l k _ h; exact ⟨k, rfl, h⟩
  | succ n ih =>
    intro l k hn h
    obtain ⟨l', h1, h2, h3, h4⟩ := ih (l := nextSt m l) (nulFree_after _ hn) h
    have hp : l'.scanner.pos = l.scanner.pos.advanceAll (nextSt m l).rawText := h3
    obtain ⟨l'', h5, h6, h7, h8⟩ := unNextTo_eq hp
    refine ⟨l'', ?_, ?_, h7, by rw [h8, h4]; rfl⟩
    · rw [raws, List.reverse_cons, unNextAll_append]
      refine (bind_ok h1).trans ?_
      exact bind_ok h5
    · rw [h6, h2]
      exact (drop_raw m l.scanner.inp).symm

/-- C02: `PeekN n` returns the token that the `n`-th `Next` would read and consumes nothing. -/
theorem peekN_pure (n : Nat) {l : Lexer} (h : NulFree l.scanner.inp) :
    ∃ t l' l'', Lexer.peekN n l = .ok t l' ∧ nextN n l = .ok () l'' ∧ l''.token = t ∧
      SameCursor l l' := by
  obtain ⟨l', h1, h2⟩ := unNextAll_eq l.scanner.mode n (k := after l.scanner.mode n l) h ⟨rfl, rfl, rfl⟩
  refine ⟨_, l', _, ?_, nextN_eq n h, rfl, h2⟩
  unfold Lexer.peekN
  refine (bind_ok (peekNLoop_eq n [] h)).trans ?_
  refine (bind_ok (run_tok _)).trans ?_
  refine (bind_ok h1).trans ?_
  rfl

example : ∃ l', Lexer.peekN 3 { scanner := sample } = .ok .quote l' ∧ l'.scanner.inp = sample.inp := by
  obtain ⟨t, l', l'', h1, h2, h3, h4, _⟩ := peekN_pure 3 (l := { scanner := sample }) sample_nulFree
  rw [nextN_eq 3 (l := { scanner := sample }) sample_nulFree] at h2
  injection h2 with _ h2
  subst h2
  have : t = .quote := by rw [← h3]; decide +kernel
  exact ⟨l', this ▸ h1, h4⟩

/-! ## C15: the record of comments -/

/-- Two records of the same comment. -/
def SameComment (c d : Text) : Prop := c.pos.p.offset = d.pos.p.offset ∧ c.literal = d.literal

theorem find_iff {l : List Text} {c : Text} : findComment l c = true ↔ ∃ d ∈ l, SameComment c d := by
  simp [findComment, SameComment]

/-- The accumulator of `getScannedComments`. -/
def dedup (acc : List Text) (cs : List Text) : List Text :=
  cs.foldl (fun uniqueComments c =>
    if !findComment uniqueComments c then uniqueComments ++ [c] else uniqueComments) acc

theorem dedup_cons (acc : List Text) (c : Text) (cs : List Text) :
    dedup acc (c :: cs) = dedup (if !findComment acc c then acc ++ [c] else acc) cs := rfl

theorem dedup_pairwise (cs : List Text) : ∀ acc : List Text,
    acc.Pairwise (fun d c => ¬ SameComment c d) → (dedup acc cs).Pairwise (fun d c => ¬ SameComment c d) := by
  induction cs with
  | nil => intro acc h; exact h
  | cons c cs ih =>
    intro acc h
    rw [dedup_cons]
    apply ih
    by_cases hf : findComment acc c = true
    · simpa [hf] using h
    · simp only [hf, Bool.not_false, if_true]
      rw [List.pairwise_append]
      refine ⟨h, List.pairwise_singleton _ _, ?_⟩
      intro d hd e he hs
      simp only [List.mem_singleton] at he
      subst he
      exact hf (find_iff.2 ⟨d, hd, hs⟩)

theorem dedup_mono (cs : List Text) : ∀ acc : List Text, acc.Sublist (dedup acc cs) := by
  induction cs with
  | nil => intro acc; exact List.Sublist.refl _
  | cons c cs ih =>
    intro acc
    rw [dedup_cons]
    refine List.Sublist.trans ?_ (ih _)
    split
    · exact List.sublist_append_left _ _
    · exact List.Sublist.refl _

theorem dedup_sublist (cs : List Text) : ∀ acc : List Text, (dedup acc cs).Sublist (acc ++ cs) := by
  induction cs with
  | nil => intro acc; simp [dedup]
  | cons c cs ih =>
    intro acc
    rw [dedup_cons]
    refine (ih _).trans ?_
    split
    · simp
    · exact List.Sublist.append_left (List.sublist_cons_self c cs) acc

theorem dedup_covers (cs : List Text) : ∀ (acc : List Text) (c : Text), c ∈ cs →
    ∃ d ∈ dedup acc cs, SameComment c d := by
  induction cs with
  | nil => intro acc c h; simp at h
  | cons a cs ih =>
    intro acc c h
    rw [dedup_cons]
    rcases List.mem_cons.1 h with rfl | h
    · by_cases hf : findComment acc c = true
      · obtain ⟨d, hd, hs⟩ := find_iff.1 hf
        exact ⟨d, (dedup_mono cs _).subset (by simpa [hf] using hd), hs⟩
      · exact ⟨c, (dedup_mono cs _).subset (by simp [hf]), rfl, rfl⟩
    · exact ih _ c h

theorem dedup_first (cs : List Text) : ∀ (acc : List Text) (pre post : List Text) (c : Text),
    cs = pre ++ c :: post → (∀ d ∈ acc ++ pre, ¬ SameComment c d) → c ∈ dedup acc cs := by
  induction cs with
  | nil => intro acc pre post c h; simp at h
  | cons a cs ih =>
    intro acc pre post c h hd
    rw [dedup_cons]
    cases pre with
    | nil =>
      simp only [List.nil_append, List.cons.injEq] at h
      obtain ⟨rfl, rfl⟩ := h
      have hf : findComment acc a = false := by
        cases hf : findComment acc a with
        | false => rfl
        | true =>
          obtain ⟨d, h1, h2⟩ := find_iff.1 hf
          exact absurd h2 (hd d (by simp [h1]))
      exact (dedup_mono cs _).subset (by simp [hf])
    | cons b pre =>
      simp only [List.cons_append, List.cons.injEq] at h
      obtain ⟨rfl, rfl⟩ := h
      apply ih _ pre post c rfl
      intro d h
      apply hd
      simp only [List.mem_append, List.mem_cons] at h ⊢
      rcases h with h | h
      · split at h
        · simp only [List.mem_append, List.mem_singleton] at h
          rcases h with h | h
          · exact .inl h
          · exact .inr (.inl h)
        · exact .inl h
      · exact .inr (.inr h)

/-- C15: the scanned comments are the recorded ones in the order of their first record, each exactly
once. -/
theorem comments_once (s : Scanner) :
    (getScannedComments s).Sublist s.comments ∧
    (getScannedComments s).Pairwise (fun d c => ¬ SameComment c d) ∧
    (∀ c ∈ s.comments, ∃ d ∈ getScannedComments s, SameComment c d) ∧
    (∀ pre c post, s.comments = pre ++ c :: post → (∀ d ∈ pre, ¬ SameComment c d) →
      c ∈ getScannedComments s) :=
  ⟨dedup_sublist s.comments [], dedup_pairwise _ _ .nil, dedup_covers _ _,
   fun pre c post h hd => dedup_first s.comments [] pre post c h (by simpa using hd)⟩

/-- C15: `FindMidComments` returns the scanned comments strictly between two offsets, in order. -/
theorem mid_comments (l : Lexer) (a b : SPos) :
    (findMidComments l a b).Sublist (getScannedComments l.scanner) ∧
    ∀ c, c ∈ findMidComments l a b ↔ c ∈ getScannedComments l.scanner ∧
      a.p.offset < c.pos.p.offset ∧ c.pos.p.offset < b.p.offset := by
  refine ⟨List.filter_sublist, fun c => ?_⟩
  simp [findMidComments]

theorem gap_comment {com : Bool} {rest g : Str} {cs : List (Str × Str)} (h : Gap com rest g cs) :
    ∀ c ∈ cs, ∃ raw post, g = c.1 ++ (raw ++ post) ∧ Comment (post ++ rest) raw c.2 := by
  induction h with
  | nil => simp
  | space d g cs _ _ ih =>
    intro c hc
    simp only [List.mem_map] at hc
    obtain ⟨c, hc, rfl⟩ := hc
    obtain ⟨raw, post, h1, h2⟩ := ih c hc
    exact ⟨raw, post, by rw [h1]; rfl, h2⟩
  | comment raw text g cs _ hcm _ ih =>
    intro c hc
    simp only [List.mem_cons, List.mem_map] at hc
    rcases hc with rfl | ⟨c, hc, rfl⟩
    · exact ⟨raw, g, rfl, hcm⟩
    · obtain ⟨raw', post, h1, h2⟩ := ih c hc
      exact ⟨raw', post, by simp [h1], h2⟩

/-- C15: after any history, every recorded comment is a comment of the source at its position. -/
theorem comments_genuine {f src : Str} (h : NulFree src) {s : Scanner} (hs : Hist f src s) :
    ∀ c ∈ s.comments, ∃ pre raw rest, src = pre ++ (raw ++ rest) ∧ Comment rest raw c.literal ∧
      c.pos.p = posAt f pre := by
  have step : ∀ (s s' : Scanner) (r : Scanned), Hist f src s → scan s = .ok r s' →
      (∀ c ∈ s.comments, ∃ pre raw rest, src = pre ++ (raw ++ rest) ∧ Comment rest raw c.literal ∧
        c.pos.p = posAt f pre) →
      ∀ c ∈ s'.comments, ∃ pre raw rest, src = pre ++ (raw ++ rest) ∧ Comment rest raw c.literal ∧
        c.pos.p = posAt f pre := by
    intro s s' r hh h1 ih c hc
    have key : (c.literal, c.pos.p) ∈ s'.comments.map (fun c => (c.literal, c.pos.p)) :=
      List.mem_map.2 ⟨c, hc, rfl⟩
    obtain ⟨pre, g, cs, raw, e, _, hg, _, hp, h3, h4, h5⟩ := scan_skips_gap h hh h1
    rw [h5, List.mem_append, List.mem_append] at key
    rcases key with (key | key) | key
    · obtain ⟨d, hd, he⟩ := List.mem_map.1 key
      simp only [Prod.mk.injEq] at he
      obtain ⟨a, b, c', x, y, z⟩ := ih d hd
      exact ⟨a, b, c', x, by rw [← he.1]; exact y, by rw [← he.2]; exact z⟩
    · obtain ⟨d, hd, he⟩ := List.mem_map.1 key
      simp only [Prod.mk.injEq] at he
      obtain ⟨raw', post, h6, h7⟩ := gap_comment hg d hd
      refine ⟨pre ++ d.1, raw', post ++ (raw ++ s'.inp), by rw [e, h6]; simp, ?_, he.2.symm⟩
      rw [← he.1]
      exact h7
    · split at key
      · next ht =>
        simp only [List.mem_singleton, Prod.mk.injEq] at key
        have he : r.error = none := by
          by_cases he : r.error = none
          · exact he
          · have := (h4 he).1
            rw [ht] at this
            simp at this
        have hl := h3 he
        rw [ht] at hl
        generalize hx : r.text = tx at *
        cases hl with
        | word _ _ _ _ hc => cases hc; next hs => simp [spelling] at hs
        | comment _ _ _ hc => exact ⟨pre ++ g, raw, s'.inp, by rw [e]; simp, by rw [key.1]; exact hc,
            by rw [key.2, hp]⟩
        | punct _ _ hp => simp [punctuation] at hp
      · simp at key
  induction hs with
  | start => intro c hc; simp [Scanner.new] at hc
  | mode s m _ ih => exact ih
  | scan s s' r hh h1 ih => exact step s s' r hh h1 ih
  | undo s s' r hh h1 ih =>
    intro c hc
    apply step s s' r hh h1 ih
    obtain ⟨_, rfl⟩ := scan_inv (hist_nulFree h hh) h1
    rw [unScan_after] at hc
    exact hc

theorem posAt_offset_inj {f a b x y : Str} (e : a ++ x = b ++ y)
    (h : (posAt f a).offset = (posAt f b).offset) : a = b := by
  have hb : bytes a = bytes b := by have := h; simp only [posAt] at this; exact_mod_cast this
  have pos : ∀ c, 0 < utf8Len c := by
    intro c; unfold utf8Len; repeat' split
    all_goals omega
  clear h
  induction a generalizing b with
  | nil =>
    cases b with
    | nil => rfl
    | cons c b => have := pos c; simp [bytes] at hb; omega
  | cons c a ih =>
    cases b with
    | nil => have := pos c; simp [bytes] at hb; omega
    | cons d b =>
      simp only [List.cons_append, List.cons.injEq] at e
      obtain ⟨rfl, e⟩ := e
      rw [ih e (by simpa [bytes] using hb)]

/-- C15: after any history, no two scanned comments have the same offset. -/
theorem comments_distinct_offsets {f src : Str} (h : NulFree src) {s : Scanner} (hs : Hist f src s) :
    (getScannedComments s).Pairwise (fun c d => c.pos.p.offset ≠ d.pos.p.offset) := by
  obtain ⟨h1, h2, _⟩ := comments_once s
  refine List.Pairwise.imp_of_mem ?_ h2
  intro c d hc hd hne he
  obtain ⟨p1, r1, t1, e1, k1, q1⟩ := comments_genuine h hs c (h1.subset hc)
  obtain ⟨p2, r2, t2, e2, k2, q2⟩ := comments_genuine h hs d (h1.subset hd)
  rw [q1, q2] at he
  have e : p1 ++ (r1 ++ t1) = p2 ++ (r2 ++ t2) := by rw [← e1, ← e2]
  have hp := posAt_offset_inj e he
  subst hp
  have := (comment_unique k1 k2 (List.append_cancel_left e)).2
  exact hne ⟨by rw [q1, q2], this.symm⟩

example : ∃ s, Hist c!"f.proto" sample.inp s ∧ s.comments.length = 4 ∧
    (getScannedComments s).length = 2 := by
  obtain ⟨r1, s1, h1⟩ := scan_total sample sample_nulFree
  have hh : Hist c!"f.proto" sample.inp sample := .start
  have hn : NulFree s1.unScan.inp := by
    rw [(unscan_restores sample_nulFree h1).1]; exact sample_nulFree
  obtain ⟨r2, s2, h2⟩ := scan_total s1.unScan hn
  refine ⟨s2, .scan _ _ _ (.undo _ _ _ hh h1) h2, ?_⟩
  obtain ⟨_, rfl⟩ := scan_inv sample_nulFree h1
  obtain ⟨_, rfl⟩ := scan_inv hn h2
  decide +kernel

end Verif.Props
