import Verif.Proofs.CompleteField
import Verif.Proofs.ParseReserved

/-!
# reserved.go, extensions.go and declaration.go accept what the grammar describes
-/

set_option backward.isDefEq.respectTransparency false
set_option backward.dsimp.instances true

namespace Verif
variable {T : Src}
open Spec Scanner Lexer
open M (bind_ok run_get)

namespace Parser

section
variable {H : Halt → Prop} {E : Err → Lexer → Prop} {l : Lexer} {rest : List Str} {cfg : Cfg} {G : Gram}

/-! ## Ranges -/

/-- A spelling that can follow a range. -/
def RangeEnd (rest : List Str) : Prop := ∃ w us t, rest = w :: us ∧ TokIs {} w t ∧ w ≠ c!"to"

theorem parseRange_go {x : Range} {ws : List Str} (hx : RangeToks x ws) (hr : RangeEnd rest)
    (h : Ahead T l (ws ++ rest)) : Sat H (fun r l' => r = x ∧ Ahead T l' rest) E (parseRange l) := by
  unfold parseRange
  refine sat_nextWith h.good ?_
  rw [sat_tok]
  cases hx with
  | one w hw =>
    obtain ⟨h1, h2, h3⟩ := Ahead.next (w := w) (ws := rest) h (m := .numberLit) rfl (tokIs_int rfl hw)
    refine sat_neg (by simp [h1]) ?_
    rw [sat_txt]
    refine sat_next h3.good ?_
    rw [sat_txt]
    obtain ⟨u, us, t, rfl, ht, hne⟩ := hr
    refine sat_pos (by rw [(h3.next (m := {}) rfl ht).2.1]; exact hne) ?_
    refine sat_unNext ?_
    exact ⟨by rw [h2], h3.putBack {}⟩
  | to w e hw he =>
    obtain ⟨h1, h2, h3⟩ := Ahead.next (w := w) (ws := c!"to" :: e :: rest) h (m := .numberLit) rfl (tokIs_int rfl hw)
    refine sat_neg (by simp [h1]) ?_
    rw [sat_txt]
    refine sat_next h3.good ?_
    rw [sat_txt]
    obtain ⟨_, h5, h6⟩ := h3.next (m := {}) rfl (tokIs_ident (.mk 't' _ (by unfold WordStart; decide) (by unfold WordChar; decide)))
    refine sat_neg (by simp [h5]) ?_
    generalize nextSt {} (nextSt .numberLit l) = l2 at *
    refine sat_nextWith h6.good ?_
    rw [sat_tok, sat_txt]
    rcases he with he | rfl
    · obtain ⟨h7, h8, h9⟩ := h6.next (m := .numberLit) rfl (tokIs_int rfl he)
      refine sat_pos (.inl h7) ?_
      exact ⟨by rw [h2, h8], h9⟩
    · obtain ⟨h7, h8, h9⟩ := h6.next (m := .numberLit) rfl (tokIs_word _ (.mk 'm' _ (by unfold WordStart; decide) (by unfold WordChar; decide)))
      refine sat_pos (.inr h8) ?_
      exact ⟨by rw [h2, h8], h9⟩

theorem RangeTail.snoc {xs : List Range} {x : Range} {ws ws' : List Str}
    (h : RangeTail xs ws) (h' : RangeToks x ws') : RangeTail (xs ++ [x]) (ws ++ c!"," :: ws') := by
  induction h with
  | nil => simpa using RangeTail.cons x ws' [] [] h' .nil
  | cons a as b bs ha _ ih => simpa using RangeTail.cons a as _ _ ha ih

theorem RangesToks.split {xs : List Range} {ws : List Str} (h : RangesToks xs ws) :
    ∃ a as b bs, RangeToks a as ∧ RangeTail b bs ∧ xs = a :: b ∧ ws = as ++ bs := by
  induction h with
  | one s ws h => exact ⟨s, ws, [], [], h, .nil, by simp, by simp⟩
  | more s ws s' ws' _ h' ih =>
    obtain ⟨a, as, b, bs, h1, h2, rfl, rfl⟩ := ih
    exact ⟨a, as, _, _, h1, h2.snoc h', by simp, by simp⟩

theorem rangeTail_end {xs : List Range} {ws : List Str} (h : RangeTail xs ws) (hr : RangeEnd rest) :
    RangeEnd (ws ++ rest) := by
  cases h with
  | nil => exact hr
  | cons => exact ⟨c!",", _, _, rfl, tokIs_comma, by simp⟩

theorem rangesLoop_go (hr : RangeEnd rest) (hf : Free [','] rest) (n : Nat) :
    ∀ {l : Lexer} {acc xs : List Range} {ws : List Str}, RangeTail xs ws → Ahead T l (ws ++ rest) →
      ws.length < n →
    Sat H (fun r l' => r = acc ++ xs ∧ Ahead T l' rest) E (rangesLoop n acc l) := by
  induction n with
  | zero => intro _ _ _ _ _ _ h; omega
  | succ n ih =>
    intro l acc xs ws hs h hn
    unfold rangesLoop
    refine sat_next h.good ?_
    rw [sat_tok]
    cases hs with
    | nil =>
      have h4 : (nextSt {} l).token ≠ .comma := h.ne_punct rfl rfl hf (by simp)
      refine sat_pos h4 ?_
      refine sat_unNext ?_
      exact ⟨by simp, h.putBack {}⟩
    | cons a as b bs ha hb =>
      obtain ⟨h4, h5, h6⟩ := Ahead.next (w := c!",") (ws := as ++ (bs ++ rest))
        (by simpa using h) (m := {}) rfl tokIs_comma
      refine sat_neg (by simp [h4]) ?_
      simp only [List.length_append, List.length_cons] at hn
      refine Sat.bind (parseRange_go ha (rangeTail_end hb hr) h6) ?_
      rintro r l2 ⟨rfl, h7⟩
      refine (ih hb h7 (by omega)).mono ?_ (fun _ _ h => h)
      rintro r' l' ⟨rfl, h7⟩
      exact ⟨by simp, h7⟩

theorem parseRanges_go {xs : List Range} {ws : List Str} (hs : RangesToks xs ws) (hr : RangeEnd rest)
    (hf : Free [','] rest) (h : Ahead T l (ws ++ rest)) :
    Sat H (fun r l' => r = xs ∧ Ahead T l' rest) E (parseRanges l) := by
  obtain ⟨a, as, b, bs, h1, h2, rfl, rfl⟩ := RangesToks.split hs
  unfold parseRanges
  refine Sat.bind (parseRange_go h1 (rangeTail_end h2 hr) (by simpa using h)) ?_
  rintro r l2 ⟨rfl, h3⟩
  rw [sat_bound]
  exact rangesLoop_go hr hf _ h2 h3 (Ahead.bound h3)

/-! ## Reserved names -/

theorem parseFieldName_go {w : Str} (hw : ReservedName w) (h : Ahead T l (w :: rest)) :
    Sat H (fun r l' => r = w ∧ Ahead T l' rest) E (parseFieldName l) := by
  unfold parseFieldName
  rcases hw with hw | hw
  · refine go_attempt (Q := fun r l' => r = w ∧ Ahead T l' rest) ?_ (fun a l' h => h)
    unfold parseQuotedFieldName
    refine sat_nextWith h.good ?_
    rw [sat_tok]
    obtain ⟨h1, h2, h3⟩ := h.next (m := .strLit) rfl (tokIs_str rfl hw)
    refine sat_neg (by simp [h1]) ?_
    exact ⟨h2, h3⟩
  · refine Sat.bind (Q := fun r l' => ∃ e, r = .error e ∧ Ahead T l' (w :: rest))
      (Sat.attempt (Q := fun _ _ => False) (E := fun _ l' => Ahead T l' (w :: rest)) ?_ ?_ ?_) ?_
    · unfold parseQuotedFieldName
      refine sat_nextWith h.good ?_
      rw [sat_tok]
      have : (nextSt .strLit l).token ≠ .strLit := h.ne_str rfl ((free_word' hw).mono (by decide))
      refine sat_pos this ?_
      refine sat_unNext ?_
      exact h.putBackOf (fun _ => free_word_starts _ hw)
    · exact fun _ _ h => h.elim
    · exact fun e _ h => ⟨e, rfl, h⟩
    · rintro r l' ⟨e, rfl, h⟩
      refine sat_next h.good ?_
      rw [sat_tok]
      obtain ⟨h1, h2, h3⟩ := h.next (m := {}) rfl (tokIs_ident hw)
      refine sat_neg (by simp [h1]) ?_
      exact ⟨h2, h3⟩

/-- There is no name before a semicolon. -/
theorem parseFieldName_fail (h : Ahead T l (c!";" :: rest)) :
    Sat H (fun _ _ => False) (fun _ l' => Ahead T l' (c!";" :: rest)) (parseFieldName l) := by
  unfold parseFieldName
  refine Sat.bind (Q := fun r l' => ∃ e, r = .error e ∧ Ahead T l' (c!";" :: rest))
      (Sat.attempt (Q := fun _ _ => False) (E := fun _ l' => Ahead T l' (c!";" :: rest)) ?_ ?_ ?_) ?_
  · unfold parseQuotedFieldName
    refine sat_nextWith h.good ?_
    rw [sat_tok]
    obtain ⟨h1, _, _⟩ := h.next (m := .strLit) rfl tokIs_semi
    refine sat_pos (by simp [h1]) ?_
    refine sat_unNext ?_
    exact h.putBackOf (fun _ => free_cons (by decide))
  · exact fun _ _ h => h.elim
  · exact fun e _ h => ⟨e, rfl, h⟩
  · rintro r l' ⟨e, rfl, h⟩
    refine sat_next h.good ?_
    rw [sat_tok]
    obtain ⟨h1, _, _⟩ := h.next (m := {}) rfl tokIs_semi
    refine sat_pos (by simp [h1]) ?_
    refine sat_unNext ?_
    exact h.putBack _

theorem NameSeq.snocComma {ns ws : List Str} {w : Str} (h : NameSeq ns ws) (h' : ReservedName w) :
    NameSeq (ns ++ [w]) (ws ++ [c!",", w]) := by
  induction h with
  | nil => exact .comma w [] [] h' .nil
  | comma a as bs ha _ ih => exact .comma _ _ _ ha ih
  | blank a as bs ha _ ih => exact .blank _ _ _ ha ih

theorem NameSeq.snocBlank {ns ws : List Str} {w : Str} (h : NameSeq ns ws) (h' : ReservedName w) :
    NameSeq (ns ++ [w]) (ws ++ [w]) := by
  induction h with
  | nil => exact .blank w [] [] h' .nil
  | comma a as bs ha _ ih => exact .comma _ _ _ ha ih
  | blank a as bs ha _ ih => exact .blank _ _ _ ha ih

theorem NamesToks.split {ns ws : List Str} (h : NamesToks ns ws) :
    ∃ a as bs, ReservedName a ∧ NameSeq as bs ∧ ns = a :: as ∧ ws = a :: bs := by
  induction h with
  | one w h => exact ⟨w, [], [], h, .nil, rfl, rfl⟩
  | comma ns ws w _ h' ih =>
    obtain ⟨a, as, bs, h1, h2, rfl, rfl⟩ := ih
    exact ⟨a, _, _, h1, h2.snocComma h', rfl, rfl⟩
  | blank ns ws w _ h' ih =>
    obtain ⟨a, as, bs, h1, h2, rfl, rfl⟩ := ih
    exact ⟨a, _, _, h1, h2.snocBlank h', rfl, rfl⟩

theorem reservedName_free {w : Str} {ws : List Str} (h : ReservedName w) : Free [','] (w :: ws) := by
  rcases h with h | h
  · obtain ⟨q, b, hq, _, rfl⟩ := h
    exact free_cons (by rcases hq with rfl | rfl <;> decide)
  · exact (free_word' h).mono (by decide)

theorem fieldNamesLoop_go (n : Nat) : ∀ {l : Lexer} {acc ns ws : List Str}, NameSeq ns ws →
    Ahead T l (ws ++ c!";" :: rest) → ws.length < n →
    Sat H (fun r l' => r = acc ++ ns ∧ Ahead T l' (c!";" :: rest)) E (fieldNamesLoop n acc l) := by
  induction n with
  | zero => intro _ _ _ _ _ _ h; omega
  | succ n ih =>
    intro l acc ns ws hs h hn
    unfold fieldNamesLoop
    refine sat_next h.good ?_
    rw [sat_tok]
    cases hs with
    | nil =>
      have h4 : (nextSt {} l).token ≠ .comma := h.ne_punct rfl rfl (bad := [',']) (free_cons (by decide)) (by simp)
      refine sat_neg h4 ?_
      refine sat_unNext ?_
      refine Sat.bind (Q := fun r l' => ∃ e, r = .error e ∧ Ahead T l' (c!";" :: rest))
        (Sat.attempt (parseFieldName_fail (h.putBack {})) (fun _ _ h => h.elim) (fun e _ h => ⟨e, rfl, h⟩)) ?_
      rintro r l' ⟨e, rfl, h⟩
      exact ⟨by simp, h⟩
    | comma w ns ws hw hb =>
      obtain ⟨h4, h5, h6⟩ := Ahead.next (w := c!",") (ws := w :: (ws ++ c!";" :: rest))
        (by simpa using h) (m := {}) rfl tokIs_comma
      refine sat_pos h4 ?_
      simp only [List.length_cons] at hn
      refine Sat.bind (parseFieldName_go hw h6) ?_
      rintro r l2 ⟨rfl, h7⟩
      refine (ih hb h7 (by omega)).mono ?_ (fun _ _ h => h)
      rintro r' l' ⟨rfl, h7⟩
      exact ⟨by simp, h7⟩
    | blank w ns ws hw hb =>
      have h4 : (nextSt {} l).token ≠ .comma := h.ne_punct rfl rfl (reservedName_free hw) (by simp)
      refine sat_neg h4 ?_
      refine sat_unNext ?_
      simp only [List.length_cons] at hn
      refine go_attempt (parseFieldName_go hw (h.putBack {})) ?_
      rintro r l2 ⟨rfl, h7⟩
      refine (ih hb h7 (by omega)).mono ?_ (fun _ _ h => h)
      rintro r' l' ⟨rfl, h7⟩
      exact ⟨by simp, h7⟩

/-- A name is not a range. -/
theorem parseRanges_fail {w : Str} (hw : ReservedName w) (h : Ahead T l (w :: rest)) :
    Sat H (fun _ _ => False) (fun _ l' => Ahead T l' (w :: rest)) (parseRanges l) := by
  unfold parseRanges
  refine Sat.bind (Q := fun _ _ => False) ?_ (fun _ _ h => h.elim)
  unfold parseRange
  refine sat_nextWith h.good ?_
  rw [sat_tok]
  have : (nextSt .numberLit l).token ≠ .intLit := by
    rcases hw with hw | hw
    · have hq : TokIs .numberLit w .quote ∨ (nextSt .numberLit l).token ≠ .intLit := by
        right
        intro hk
        have g := got_next (m := .numberLit) rfl hk (by simp) (by simp)
        have hx : IntLit (nextTok .numberLit l).text := g.reads
        obtain ⟨c, x, e, hc⟩ := intLit_head hx
        have := h.body_head (m := .numberLit) rfl (c := c) (by rw [e]; rfl)
        obtain ⟨q, b, hq, _, rfl⟩ := hw
        simp only [List.cons_append, List.head?_cons, Option.some.injEq] at this
        subst this
        rcases hq with rfl | rfl <;> exact absurd hc (by decide)
      rcases hq with hq | hq
      · rw [(h.next rfl hq).1]; simp
      · exact hq
    · rw [(h.next (m := .numberLit) rfl (tokIs_word _ hw)).1]
      rcases wordToken_cases .numberLit w with h | h | h | h
      · rw [h]; simp
      · rw [h]; simp
      · rw [h]; simp
      · intro h'; rw [h'] at h; simp [spelling] at h
  refine sat_pos this ?_
  refine sat_unNext ?_
  refine h.putBackOf (fun _ => ?_)
  rcases hw with hw | hw
  · obtain ⟨q, b, hq, _, rfl⟩ := hw
    exact free_cons (by rcases hq with rfl | rfl <;> decide)
  · exact free_word_starts _ hw

theorem parseReserved_go (hl : G.loose = false) {x : Reserved} {ts : List Tok} (hx : ReservedToks G x ts)
    (h : Ahead T l (words ts ++ rest)) :
    Sat H (fun r l' => bareReserved r = bareReserved x ∧ Ahead T l' rest) E (parseReserved l) := by
  unfold parseReserved
  rcases hx with ⟨ws, h1, h2, h3, _⟩ | ⟨js, ws, h1, h2, h4, h3, _⟩
  · rw [h3] at h
    refine go_expect (w := c!"reserved") (ws := ws ++ c!";" :: rest) (by simpa using h) (.with_ _) rfl
      (tokIs_keyword rfl rfl rfl rfl) (fun l1 _ _ k1 => ?_)
    rw [sat_position]
    refine Sat.bind (Q := fun r l' => r = (x.ranges, x.fieldNames) ∧ Ahead T l' (c!";" :: rest)) ?_ ?_
    · unfold parseReservedBody
      refine go_attempt (parseRanges_go h1 ⟨c!";", rest, _, rfl, tokIs_semi, by simp⟩ (free_cons (by decide)) k1) ?_
      rintro r l2 ⟨rfl, k2⟩
      exact ⟨by rw [h2], k2⟩
    rintro r l2 ⟨rfl, k2⟩
    refine go_expect k2 .next rfl tokIs_semi (fun l7 _ _ k7 => ?_)
    exact ⟨rfl, k7⟩
  · obtain rfl : js = [] := by
      rcases h4 with h | h
      · exact h
      · rw [hl] at h; simp at h
    obtain ⟨a, as, bs, g1, g2, g3, rfl⟩ := NamesToks.split h1
    rw [h3] at h
    refine go_expect (w := c!"reserved") (ws := a :: (bs ++ c!";" :: rest)) (by simpa using h) (.with_ _) rfl
      (tokIs_keyword rfl rfl rfl rfl) (fun l1 _ _ k1 => ?_)
    rw [sat_position]
    refine Sat.bind (Q := fun r l' => r = (x.ranges, x.fieldNames) ∧ Ahead T l' (c!";" :: rest)) ?_ ?_
    · unfold parseReservedBody
      refine Sat.bind (Q := fun r l' => ∃ e, r = .error e ∧ Ahead T l' (a :: (bs ++ c!";" :: rest)))
        (Sat.attempt (parseRanges_fail g1 k1) (fun _ _ h => h.elim) (fun e _ h => ⟨e, rfl, h⟩)) ?_
      rintro r l2 ⟨e, rfl, k2⟩
      refine go_attempt (Q := fun r l' => r = x.fieldNames ∧ Ahead T l' (c!";" :: rest)) ?_ ?_
      · unfold parseFieldNames
        refine Sat.bind (parseFieldName_go g1 k2) ?_
        rintro r l3 ⟨rfl, k3⟩
        rw [sat_bound]
        refine (fieldNamesLoop_go _ g2 k3 (Ahead.bound k3)).mono ?_ (fun _ _ h => h)
        rintro r l' ⟨rfl, h⟩
        exact ⟨by rw [g3]; rfl, h⟩
      · rintro r l3 ⟨rfl, k3⟩
        exact ⟨by rw [h2], k3⟩
    rintro r l2 ⟨rfl, k2⟩
    refine go_expect k2 .next rfl tokIs_semi (fun l7 _ _ k7 => ?_)
    exact ⟨rfl, k7⟩

/-! ## Declarations -/

theorem parseDeclItem_go {a : DeclAcc} {i : DeclItem} {ws : List Str} (hx : DeclItemToks i ws)
    (h : Ahead T l (ws ++ rest)) :
    Sat H (fun r l' => r = a.upd i ∧ Ahead T l' rest) E (parseDeclItem a (nextSt .kw l)) := by
  unfold parseDeclItem
  rw [sat_tok]
  cases hx with
  | number w hw =>
    obtain ⟨h1, _, h3⟩ := Ahead.next (w := c!"number") (ws := [c!":", w] ++ rest) h (m := .kw) rfl
      (tokIs_keyword (t := .kNumber) rfl rfl rfl rfl)
    refine sat_pos h1 ?_
    refine go_expect h3 .next rfl tokIs_colon (fun l2 _ _ k2 => ?_)
    refine go_expect k2 (.with_ _) rfl (tokIs_int rfl hw) (fun l3 _ e3 k3 => ?_)
    rw [sat_txt, e3]
    exact ⟨rfl, k3⟩
  | fullName w hw =>
    obtain ⟨h1, _, h3⟩ := Ahead.next (w := c!"full_name") (ws := [c!":", w] ++ rest) h (m := .kw) rfl
      (tokIs_keyword (t := .kFullName) rfl rfl rfl rfl)
    refine sat_neg (by simp [h1]) ?_
    refine sat_pos h1 ?_
    refine go_expect h3 .next rfl tokIs_colon (fun l2 _ _ k2 => ?_)
    refine go_expect k2 (.with_ _) rfl (tokIs_str rfl hw) (fun l3 _ e3 k3 => ?_)
    rw [sat_txt, e3]
    exact ⟨rfl, k3⟩
  | type w hw =>
    obtain ⟨h1, _, h3⟩ := Ahead.next (w := c!"type") (ws := [c!":", w] ++ rest) h (m := .kw) rfl
      (tokIs_keyword (t := .kType) rfl rfl rfl rfl)
    refine sat_neg (by simp [h1]) ?_
    refine sat_neg (by simp [h1]) ?_
    refine sat_pos h1 ?_
    refine go_expect h3 .next rfl tokIs_colon (fun l2 _ _ k2 => ?_)
    refine go_expect k2 (.with_ _) rfl (tokIs_str rfl hw) (fun l3 _ e3 k3 => ?_)
    rw [sat_txt, e3]
    exact ⟨rfl, k3⟩
  | repeated w hw =>
    obtain ⟨h1, _, h3⟩ := Ahead.next (w := c!"repeated") (ws := [c!":", w] ++ rest) h (m := .kw) rfl
      (tokIs_keyword (t := .kRepeated) rfl rfl rfl rfl)
    refine sat_neg (by simp [h1]) ?_
    refine sat_neg (by simp [h1]) ?_
    refine sat_neg (by simp [h1]) ?_
    refine sat_pos h1 ?_
    refine go_expect h3 .next rfl tokIs_colon (fun l2 _ _ k2 => ?_)
    refine go_expect k2 .next rfl (tokIs_ident hw) (fun l3 _ e3 k3 => ?_)
    rw [sat_txt, e3]
    exact ⟨rfl, k3⟩
  | reserved w hw =>
    obtain ⟨h1, _, h3⟩ := Ahead.next (w := c!"reserved") (ws := [c!":", w] ++ rest) h (m := .kw) rfl
      (tokIs_keyword (t := .kReserved) rfl rfl rfl rfl)
    refine sat_neg (by simp [h1]) ?_
    refine sat_neg (by simp [h1]) ?_
    refine sat_neg (by simp [h1]) ?_
    refine sat_neg (by simp [h1]) ?_
    refine sat_pos h1 ?_
    refine go_expect h3 .next rfl tokIs_colon (fun l2 _ _ k2 => ?_)
    refine go_expect k2 .next rfl (tokIs_ident hw) (fun l3 _ e3 k3 => ?_)
    rw [sat_txt, e3]
    exact ⟨rfl, k3⟩

theorem declItem_first {i : DeclItem} {ws : List Str} (h : DeclItemToks i ws) :
    ∃ w ws', ws = w :: ws' ∧ Word w := by
  cases h with
  | number => exact ⟨_, _, rfl, spelling_word (t := .kNumber) rfl⟩
  | fullName => exact ⟨_, _, rfl, spelling_word (t := .kFullName) rfl⟩
  | type => exact ⟨_, _, rfl, spelling_word (t := .kType) rfl⟩
  | repeated => exact ⟨_, _, rfl, spelling_word (t := .kRepeated) rfl⟩
  | reserved => exact ⟨_, _, rfl, spelling_word (t := .kReserved) rfl⟩

theorem declLoop_go (n : Nat) : ∀ {l : Lexer} {a : DeclAcc} {is : List DeclItem} {ws : List Str},
    DeclItems is ws → Ahead T l (ws ++ c!"}" :: rest) → ws.length < n →
    Sat H (fun r l' => r = is.foldl DeclAcc.upd a ∧ Ahead T l' rest) E (declLoop n a l) := by
  induction n with
  | zero => intro _ _ _ _ _ _ h; omega
  | succ n ih =>
    intro l a is ws hs h hn
    unfold declLoop
    refine sat_next h.good ?_
    rw [sat_tok]
    cases hs with
    | nil =>
      obtain ⟨h1, _, h3⟩ := Ahead.next (w := c!"}") (ws := rest) h (m := {}) rfl tokIs_rcurly
      refine sat_pos h1 ?_
      exact ⟨rfl, h3⟩
    | plain i ws is ws' hi hs =>
      obtain ⟨w, us, rfl, hw⟩ := declItem_first hi
      obtain ⟨h1, _, h3⟩ := Ahead.next (w := w) (ws := us ++ ws' ++ c!"}" :: rest) h (m := {}) rfl (tokIs_ident hw)
      refine sat_neg (by simp [h1]) ?_
      refine sat_pos (by simp [h1]) ?_
      refine sat_unNext ?_
      have h := h.putBack {}
      refine sat_nextWith h.good ?_
      refine Sat.bind (parseDeclItem_go hi (rest := ws' ++ c!"}" :: rest) (by simpa using h)) ?_
      rintro r l2 ⟨rfl, k2⟩
      simp only [List.length_append, List.length_cons] at hn
      exact ih hs k2 (by omega)
    | comma i ws is ws' hi hs =>
      obtain ⟨h1, _, h3⟩ := Ahead.next (w := c!",") (ws := ws ++ (ws' ++ c!"}" :: rest)) (by simpa using h) (m := {}) rfl tokIs_comma
      refine sat_neg (by simp [h1]) ?_
      refine sat_neg (by simp [h1]) ?_
      refine sat_nextWith h3.good ?_
      refine Sat.bind (parseDeclItem_go hi (rest := ws' ++ c!"}" :: rest) h3) ?_
      rintro r l2 ⟨rfl, k2⟩
      simp only [List.length_append, List.length_cons] at hn
      exact ih hs k2 (by omega)

theorem parseDeclaration_go {x : Declaration} {ts : List Tok} (hx : DeclarationToks x ts)
    (h : Ahead T l (words ts ++ rest)) :
    Sat H (fun r l' => bareDeclaration r = bareDeclaration x ∧ Ahead T l' rest) E (parseDeclaration l) := by
  obtain ⟨is, ws, h1, e1, e2, e3, e4, e5, h2, _⟩ := hx
  rw [h2] at h
  unfold parseDeclaration
  refine go_expect (w := c!"declaration") (by simpa using h) (.with_ _) rfl (tokIs_keyword rfl rfl rfl rfl)
    (fun l1 _ _ k1 => ?_)
  rw [sat_position]
  refine go_expect k1 .next rfl tokIs_equals (fun l2 _ _ k2 => ?_)
  refine go_expect k2 .next rfl tokIs_lcurly (fun l3 _ _ k3 => ?_)
  refine go_inline k3 (fun c l4 k4 => ?_)
  rw [sat_bound]
  refine Sat.bind (declLoop_go _ h1 k4 (Ahead.bound k4)) ?_
  rintro r l5 ⟨rfl, k5⟩
  refine ⟨?_, k5⟩
  rw [foldl_upd]
  simp only [bareDeclaration, e1, e2, e3, e4, e5]

theorem bare_assign (d : Declaration) (c1 c2 : Option Comment) :
    bareDeclaration (assignInlineComments d c1 c2) = bareDeclaration d := by
  cases c1 <;> cases c2 <;> rfl

theorem declarationsLoop_go (n : Nat) : ∀ {l : Lexer} {acc xs : List Declaration} {ts : List Tok},
    DeclarationList xs ts → Ahead T l (words ts ++ c!"]" :: rest) → ts.length < n →
    Sat H (fun r l' => r.map bareDeclaration = acc.map bareDeclaration ++ xs.map bareDeclaration ∧
      Ahead T l' rest) E (declarationsLoop n acc l) := by
  induction n with
  | zero => intro _ _ _ _ _ _ h; omega
  | succ n ih =>
    intro l acc xs ts hs h hn
    unfold declarationsLoop
    refine go_comments h (fun cs l1 h => ?_)
    cases hs with
    | one x ts hx =>
      refine Sat.bind (parseDeclaration_go hx h) ?_
      rintro r l2 ⟨e2, k2⟩
      refine sat_next k2.good ?_
      obtain ⟨k3, _, k4⟩ := k2.next (m := {}) rfl tokIs_rsquare
      rw [sat_tok]
      generalize nextSt {} l2 = l3 at *
      refine go_inline k4 (fun c1 l4 k5 => ?_)
      refine sat_pos k3 ?_
      refine go_inline k5 (fun c2 l5 k6 => ?_)
      refine ⟨?_, k6⟩
      simp only [List.map_append, List.map_cons, List.map_nil, bare_assign]
      rw [← e2]
      rfl
    | more x ts t xs ts' hx ht hs =>
      refine Sat.bind (parseDeclaration_go hx (rest := c!"," :: words ts' ++ c!"]" :: rest)
        (by simpa [words_append, words_cons, ht] using h)) ?_
      rintro r l2 ⟨e2, k2⟩
      refine sat_next k2.good ?_
      obtain ⟨k3, _, k4⟩ := Ahead.next (w := c!",") (ws := words ts' ++ c!"]" :: rest) k2 (m := {}) rfl tokIs_comma
      rw [sat_tok]
      generalize nextSt {} l2 = l3 at *
      refine go_inline k4 (fun c1 l4 k5 => ?_)
      refine sat_neg (by simp [k3]) ?_
      refine sat_neg (by simp [k3]) ?_
      refine go_inline k5 (fun c2 l5 k6 => ?_)
      simp only [List.length_append, List.length_cons] at hn
      refine (ih hs k6 (by omega)).mono ?_ (fun _ _ h => h)
      rintro r' l' ⟨e3, k7⟩
      refine ⟨?_, k7⟩
      rw [e3]
      simp only [List.map_append, List.map_cons, List.map_nil, bare_assign, List.append_assoc,
        List.cons_append, List.nil_append]
      rw [← e2]
      rfl

theorem parseExtensions_go {x : Extensions} {ts : List Tok} (hx : ExtensionsToks x ts)
    (h : Ahead T l (words ts ++ rest)) :
    Sat H (fun r l' => bareExtensions r = bareExtensions x ∧ Ahead T l' rest) E (parseExtensions l) := by
  obtain ⟨a, rs, ds, b, ha, h1, h2, hb, rfl, _⟩ := hx
  generalize hxd : x.declarations = xd at h2
  unfold parseExtensions
  refine go_expect (w := c!"extensions") (ws := words rs ++ (words ds ++ c!";" :: rest))
    (by simpa [words_append, words_cons, ha, hb] using h) (.with_ _) rfl
    (tokIs_keyword rfl rfl rfl rfl) (fun l1 _ _ k1 => ?_)
  rw [sat_position]
  refine Sat.bind (parseRanges_go h1 ?_ ?_ k1) ?_
  · cases h2 with
    | none => exact ⟨c!";", _, _, rfl, tokIs_semi, by simp⟩
    | some xs a ts b ha _ _ =>
      exact ⟨c!"[", _, _, by simp [ha]; rfl, tokIs_lsquare, by simp⟩
  · cases h2 with
    | none => exact free_cons (by decide)
    | some xs a ts b ha _ _ =>
      simp only [words_cons, ha, List.cons_append]
      exact free_cons (by decide)
  rintro r l2 ⟨rfl, k2⟩
  refine Sat.bind (Q := fun r l' => r.1.map bareDeclaration = xd.map bareDeclaration ∧
    Ahead T l' (c!";" :: rest)) ?_ ?_
  · unfold parseDeclarations
    refine sat_next k2.good ?_
    rw [sat_tok]
    cases h2 with
    | none =>
      obtain ⟨h4, _, _⟩ := Ahead.next (w := c!";") (ws := rest) k2 (m := {}) rfl tokIs_semi
      refine sat_pos (by simp [h4]) ?_
      refine sat_unNext ?_
      exact ⟨rfl, k2.putBack {}⟩
    | some xs a ts b ha hs hb =>
      obtain ⟨h4, _, h6⟩ := Ahead.next (w := c!"[") (ws := words ts ++ c!"]" :: c!";" :: rest)
        (by simpa [words_append, words_cons, ha, hb] using k2) (m := {}) rfl tokIs_lsquare
      refine sat_neg (by simp [h4]) ?_
      refine go_inline h6 (fun c l3 k3 => ?_)
      rw [sat_bound]
      refine Sat.bind (declarationsLoop_go _ hs k3 ?_) ?_
      · have := Ahead.bound (ws := words ts) k3
        simpa [words] using this
      rintro r l4 ⟨e4, k4⟩
      exact ⟨by simpa using e4, k4⟩
  rintro ⟨ds', c⟩ l3 ⟨e3, k3⟩
  refine go_expect k3 .next rfl tokIs_semi (fun l7 _ _ k7 => ?_)
  refine ⟨?_, k7⟩
  simp only at e3
  simp only [bareExtensions, e3, hxd]

end

end Parser

end Verif
