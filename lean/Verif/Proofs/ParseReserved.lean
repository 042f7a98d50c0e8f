import Verif.Proofs.ParseField

/-!
# reserved.go, declaration.go, extensions.go
-/

set_option backward.isDefEq.respectTransparency false
set_option backward.dsimp.instances true

namespace Verif
open Spec Scanner Lexer
open M (bind_ok run_get)

variable {sm : Bool}

/-- A token with a given non-empty text. -/
theorem next_of_text {l : Lexer} (hg : Good l) {m : Mode} (hm : m.comment = false) {w : Str}
    (h : (nextSt m l).text = w) (hw : w ≠ []) :
    (nextTok m l).text = w ∧ Took l [nextTok m l] (nextSt m l) := by
  subst h
  exact ⟨next_text hm hw, next_took hg hm (fun he => hw (eof_took hg hm he).2.2)⟩

/-- An error return, and what was read: `D` if the input ends there. -/
structure FailJ (sm : Bool) (B D : List Str → Prop) (l : Lexer) (e : Err) (l' : Lexer) : Prop
    extends Fail sm l e l' where
  left : ∃ js, Took l js l' ∧ (B (words js) ∨ (l'.scanner.inp = [] ∧ D (words js)))

theorem FailJ.trans {B B1 D D1 : List Str → Prop} {l0 l l' : Lexer} {ts : List Tok} {e : Err} (ht : Took l0 ts l)
    (h : FailJ sm B1 D1 l e l') (hB : ∀ ws, B1 ws → B (words ts ++ ws)) (hD : ∀ ws, D1 ws → D (words ts ++ ws)) :
    FailJ sm B D l0 e l' := by
  obtain ⟨js, h1, h2⟩ := h.left
  exact ⟨h.toFail.trans ht, ts ++ js, ht.trans h1, by
    rw [words_append]; exact h2.imp (hB _) (fun h => ⟨h.1, hD _ h.2⟩)⟩

/-- What is left of a range that was not completed. -/
inductive RangeCut : List Str → Prop
  | nil : RangeCut []
  | to (w e : Str) : IntLit w → e ≠ c!"max" → RangeCut [w, c!"to", e]

namespace Parser

/-! ## Ranges -/

theorem parseRange_sat {H : Halt → Prop} {l : Lexer} (hg : Good l) :
    Sat H (fun r l' => ∃ ts, RangeToks r (words ts) ∧ Took l ts l') (FailJ sm RangeCut (Begins RangeToks) l) (parseRange l) := by
  unfold parseRange
  refine sat_nextWith hg ?_
  rw [sat_tok]
  refine sat_ite (fun h => ?_) (fun h => ?_)
  · refine sat_unNext ?_
    exact ⟨fail_putBack hg _ _ _, [], took_putBack hg _, .inl .nil⟩
  have hk : (nextSt .numberLit l).token = .intLit := by simpa using h
  have g := got_next (m := .numberLit) rfl hk (by simp) (by simp)
  have ht := next_took hg (m := .numberLit) rfl (by rw [hk]; simp)
  generalize nextSt .numberLit l = l1 at ht g
  generalize nextTok .numberLit l = x1 at ht g
  have hi : IntLit l1.text := by rw [← g.text]; exact g.reads
  rw [sat_txt]
  refine sat_next ht.good ?_
  rw [sat_txt]
  refine sat_ite (fun h => ?_) (fun h => ?_)
  · refine sat_unNext ?_
    exact ⟨[x1], by simpa [g.text] using RangeToks.one _ hi, ht.nil_trans (took_putBack ht.good _)⟩
  obtain ⟨h2, h3⟩ := next_of_text ht.good (m := {}) rfl (Decidable.not_not.1 h) (by simp)
  have ht := ht.trans h3
  generalize nextSt {} l1 = l2 at ht
  generalize nextTok {} l1 = x2 at ht h2
  refine sat_nextWith ht.good ?_
  rw [sat_tok, sat_txt]
  refine sat_ite (fun h => ?_) (fun h => ?_)
  · have h4 : (nextTok .numberLit l2).text = (nextSt .numberLit l2).text ∧
        Took l2 [nextTok .numberLit l2] (nextSt .numberLit l2) ∧
        (IntLit (nextSt .numberLit l2).text ∨ (nextSt .numberLit l2).text = c!"max") := by
      rcases h with h | h
      · have g := got_next (m := .numberLit) rfl h (by simp) (by simp)
        exact ⟨g.text, next_took ht.good rfl (by rw [h]; simp), .inl (by rw [← g.text]; exact g.reads)⟩
      · obtain ⟨h5, h6⟩ := next_of_text ht.good (m := .numberLit) rfl h (by simp)
        exact ⟨h5.trans h.symm, h6, .inr h⟩
    obtain ⟨h5, h6, h7⟩ := h4
    refine ⟨_, ?_, ht.trans h6⟩
    simpa [g.text, h2, h5] using RangeToks.to _ _ hi h7
  · refine (⟨((failR_next (sm := sm) ht.good rfl _ _).trans ht).toFail, ?_⟩ : FailJ sm RangeCut (Begins RangeToks) l _
      (nextSt .numberLit l2))
    by_cases he : (nextSt .numberLit l2).token = .eof
    · have := eof_took ht.good (m := .numberLit) rfl he
      exact ⟨_, ht.trans this.1, .inr ⟨this.2.1, _, [c!"max"], by simpa [g.text, h2] using RangeToks.to _ _ hi (.inr rfl)⟩⟩
    · have hn := next_took ht.good (m := .numberLit) rfl he
      refine ⟨_, ht.trans hn, .inl ?_⟩
      have hm : (nextTok .numberLit l2).text ≠ c!"max" := by
        intro hx
        have hw : Word (nextTok .numberLit l2).text := by
          rw [hx]; exact .mk _ _ (by simp [WordStart, letters]) (by simp [WordChar, letters])
        exact h (.inr (((took_word hn hw (m := .numberLit) rfl).2).trans hx))
      simpa [g.text, h2] using RangeCut.to _ _ hi hm

/-- `{ "," range }` -/
inductive RangeTail : List Range → List Str → Prop
  | nil : RangeTail [] []
  | cons (x : Range) (ws : List Str) (xs : List Range) (ws' : List Str) :
      RangeToks x ws → RangeTail xs ws' → RangeTail (x :: xs) (c!"," :: ws ++ ws')

theorem ranges_of_tail {s s' : List Range} {ws ws' : List Str}
    (h : RangesToks s ws) (h' : RangeTail s' ws') : RangesToks (s ++ s') (ws ++ ws') := by
  induction h' generalizing s ws with
  | nil => simpa using h
  | cons a as b bs ha _ ih => simpa using ih (.more s ws a as h ha)

/-- What is left of further ranges. -/
def TailCut (js : List Str) : Prop := ∃ s ws vs, RangeTail s ws ∧ RangeCut vs ∧ js = ws ++ c!"," :: vs

theorem tailCut_cons {r : Range} {ws vs : List Str} (h : RangeToks r ws) (h' : TailCut vs) :
    TailCut (c!"," :: ws ++ vs) := by
  obtain ⟨s, us, js, h1, h2, rfl⟩ := h'
  exact ⟨_, _, js, .cons _ _ _ _ h h1, h2, by simp⟩

theorem rangesCut_of {rs : List Range} {ws js : List Str} (h : RangesToks rs ws) (h' : TailCut js) :
    RangesCut (ws ++ js) := by
  obtain ⟨s, us, vs, h1, h2, rfl⟩ := h'
  have h3 := ranges_of_tail h h1
  cases h2 with
  | nil => simpa using RangesCut.comma _ _ h3
  | to w e hw he => simpa using RangesCut.commaTo _ _ w e h3 hw he

theorem rangesLoop_sat {H : Halt → Prop} (n : Nat) :
    ∀ {l : Lexer} {acc : List Range}, Good l → l.scanner.inp.length < n →
    Sat H (fun r l' => ∃ s us, r = acc ++ s ∧ RangeTail s (words us) ∧ Took l us l')
      (FailJ sm TailCut (Begins RangeTail) l) (rangesLoop n acc l) := by
  induction n with
  | zero => intro _ _ _ h; omega
  | succ n ih =>
    intro l acc hg hn
    unfold rangesLoop
    refine sat_next hg ?_
    rw [sat_tok]
    refine sat_ite (fun h => ?_) (fun h => ?_)
    · refine sat_unNext ?_
      exact ⟨[], [], by simp, .nil, took_putBack hg _⟩
    have hk : (nextSt {} l).token = .comma := by simpa using h
    have g := got_next (m := {}) rfl hk (by simp) (by simp)
    have ht := next_took hg (m := {}) rfl (by rw [hk]; simp)
    generalize nextSt {} l = l1 at ht g
    generalize nextTok {} l = x1 at ht g
    refine Sat.bind' (parseRange_sat ht.good) (fun _ _ he => he.trans ht ?_ ?_) ?_
    · intro ws hw
      exact ⟨[], [], ws, .nil, hw, by simp [g.punct rfl]⟩
    · rintro ws ⟨r, more, hr⟩
      exact ⟨_, more, by simpa [g.punct rfl] using RangeTail.cons _ _ _ _ hr .nil⟩
    rintro r l2 ⟨us, h1, h2⟩
    have ht := ht.trans h2
    have hl := ht.length
    simp at hl
    refine (ih ht.good (by omega)).mono ?_ (fun _ _ he => he.trans ht ?_ ?_)
    rotate_left
    · intro ws hw
      simpa [g.punct rfl] using tailCut_cons h1 hw
    · rintro ws ⟨rs, more, hr⟩
      exact ⟨_, more, by simpa [g.punct rfl] using RangeTail.cons _ _ _ _ h1 hr⟩
    rintro r' l' ⟨s, vs, rfl, h3, h4⟩
    refine ⟨r :: s, x1 :: us ++ vs, by simp, ?_, by simpa using ht.trans h4⟩
    simpa [g.punct rfl] using RangeTail.cons _ _ _ _ h1 h3

theorem parseRanges_cut {H : Halt → Prop} {l : Lexer} (hg : Good l) :
    Sat H (fun r l' => ∃ ts, RangesToks r (words ts) ∧ Took l ts l')
      (FailJ sm (fun js => js = [] ∨ RangesCut js) (Begins RangesToks) l) (parseRanges l) := by
  unfold parseRanges
  refine Sat.bind' (parseRange_sat hg) (fun _ _ he => he.trans (Took.refl hg) ?_ ?_) ?_
  · intro ws hw
    cases hw with
    | nil => exact .inl rfl
    | to w e hw he => exact .inr (.to w e hw he)
  · rintro ws ⟨r, more, hr⟩
    exact ⟨_, more, .one _ _ hr⟩
  rintro r l2 ⟨us, h1, h2⟩
  rw [sat_bound]
  refine (rangesLoop_sat _ h2.good (by omega)).mono ?_ (fun _ _ he => he.trans h2 ?_ ?_)
  rotate_left
  · intro ws hw
    exact .inr (rangesCut_of (.one _ _ h1) hw)
  · rintro ws ⟨rs, more, hr⟩
    exact ⟨_, more, by rw [List.append_assoc]; exact ranges_of_tail (.one _ _ h1) hr⟩
  rintro r' l' ⟨s, vs, rfl, h3, h4⟩
  refine ⟨us ++ vs, ?_, h2.trans h4⟩
  rw [words_append]
  exact ranges_of_tail (.one _ _ h1) h3

theorem parseRanges_sat {H : Halt → Prop} {l : Lexer} (hg : Good l) :
    Sat H (fun r l' => ∃ ts, RangesToks r (words ts) ∧ Took l ts l') (Fail sm l) (parseRanges l) :=
  (parseRanges_cut hg).mono (fun _ _ h => h) (fun _ _ h => h.toFail)

/-! ## Names -/

theorem parseQuotedFieldName_sat {H : Halt → Prop} {l : Lexer} (hg : Good l) :
    Sat H (fun r l' => ∃ x, x.text = r ∧ StrLit r ∧ Took l [x] l')
      (fun e l' => Fail sm l e l' ∧ Took l [] l') (parseQuotedFieldName l) := by
  unfold parseQuotedFieldName
  refine sat_nextWith hg ?_
  rw [sat_tok]
  refine sat_ite (fun h => ?_) (fun h => ?_)
  · refine sat_unNext ?_
    exact ⟨fail_putBack hg _ _ _, took_putBack hg _⟩
  have hk : (nextSt .strLit l).token = .strLit := by simpa using h
  have g := got_next (m := .strLit) rfl hk (by simp) (by simp)
  exact ⟨_, g.text, by rw [← g.text]; exact g.reads, next_took hg rfl (by rw [hk]; simp)⟩

theorem parseFieldName_sat {H : Halt → Prop} {l : Lexer} (hg : Good l) :
    Sat H (fun r l' => ∃ x, x.text = r ∧ ReservedName r ∧ Took l [x] l')
      (fun e l' => Fail sm l e l' ∧ Took l [] l') (parseFieldName l) := by
  unfold parseFieldName
  refine Sat.bind (Q := fun r l2 => (∃ w x, r = .ok w ∧ x.text = w ∧ StrLit w ∧ Took l [x] l2) ∨
      (∃ e, r = .error e ∧ Took l [] l2))
    (Sat.attempt (parseQuotedFieldName_sat (sm := sm) hg) ?_ ?_) ?_
  · rintro w l2 ⟨x, h1, h2, h3⟩
    exact .inl ⟨w, x, rfl, h1, h2, h3⟩
  · rintro e l2 ⟨_, h⟩
    exact .inr ⟨e, rfl, h⟩
  rintro r l2 (⟨w, x, rfl, h1, h2, h3⟩ | ⟨e, rfl, ht⟩)
  · exact ⟨x, h1, .inl h2, h3⟩
  · refine sat_next ht.good ?_
    rw [sat_tok]
    refine sat_ite (fun h => ?_) (fun h => ?_)
    · refine sat_unNext ?_
      exact ⟨(fail_putBack ht.good _ _ _).trans ht, ht.nil_trans (took_putBack ht.good _)⟩
    have hk : (nextSt {} l2).token = .ident := by simpa using h
    have g := got_next (m := {}) rfl hk (by simp) (by simp)
    exact ⟨_, g.text, .inr (by rw [← g.text]; exact g.reads.1),
      by simpa using ht.trans (next_took ht.good rfl (by rw [hk]; simp))⟩

/-- `{ [ "," ] fieldName }` -/
inductive NameSeq : List Str → List Str → Prop
  | nil : NameSeq [] []
  | comma (w : Str) (ns ws : List Str) : ReservedName w → NameSeq ns ws →
      NameSeq (w :: ns) (c!"," :: w :: ws)
  | blank (w : Str) (ns ws : List Str) : ReservedName w → NameSeq ns ws → NameSeq (w :: ns) (w :: ws)

theorem names_of_seq {s s' ws ws' : List Str} (h : NamesToks s ws) (h' : NameSeq s' ws') :
    NamesToks (s ++ s') (ws ++ ws') := by
  induction h' generalizing s ws with
  | nil => simpa using h
  | comma w ns us hw _ ih => simpa using ih (.comma s ws w h hw)
  | blank w ns us hw _ ih => simpa using ih (.blank s ws w h hw)

theorem fieldNamesLoop_sat {H : Halt → Prop} (n : Nat) :
    ∀ {l : Lexer} {acc : List Str}, Good l → l.scanner.inp.length < n →
    Sat H (fun r l' => ∃ s us, r = acc ++ s ∧ NameSeq s (words us) ∧ Took l us l')
      (Fail sm l) (fieldNamesLoop n acc l) := by
  induction n with
  | zero => intro _ _ _ h; omega
  | succ n ih =>
    intro l acc hg hn
    unfold fieldNamesLoop
    refine sat_next hg ?_
    rw [sat_tok]
    refine sat_ite (fun h => ?_) (fun h => ?_)
    · have g := got_next (m := {}) rfl h (by simp) (by simp)
      have ht := next_took hg (m := {}) rfl (by rw [h]; simp)
      generalize nextSt {} l = l1 at ht g
      generalize nextTok {} l = x1 at ht g
      refine Sat.step ht ((parseFieldName_sat (sm := sm) ht.good).mono (fun _ _ h => h) (fun _ _ h => h.1)) ?_
      rintro r l2 ⟨x2, h1, h2, h3⟩
      have ht := ht.trans h3
      have hl := ht.length
      simp at hl
      refine (Sat.tail (E := Fail sm) ht (ih ht.good (by omega))).mono ?_ (fun _ _ h => h)
      rintro r' l' ⟨s, vs, rfl, h4, h5⟩
      refine ⟨r :: s, x1 :: x2 :: vs, by simp, ?_, by simpa using ht.trans h5⟩
      simpa [g.punct rfl, h1] using NameSeq.comma _ _ _ h2 h4
    · refine sat_unNext ?_
      have ht := took_putBack hg {}
      refine Sat.bind (Q := fun r l2 => (∃ w x, r = .ok w ∧ x.text = w ∧ ReservedName w ∧ Took l [x] l2) ∨
          (∃ e, r = .error e ∧ Took l [] l2))
        (Sat.attempt (parseFieldName_sat (sm := sm) ht.good) ?_ ?_) ?_
      · rintro w l2 ⟨x, h1, h2, h3⟩
        exact .inl ⟨w, x, rfl, h1, h2, by simpa using ht.trans h3⟩
      · rintro e l2 ⟨_, h⟩
        exact .inr ⟨e, rfl, ht.trans h⟩
      rintro r l2 (⟨w, x, rfl, h1, h2, ht⟩ | ⟨e, rfl, ht⟩)
      · have hl := ht.length
        simp at hl
        refine (Sat.tail (E := Fail sm) ht (ih ht.good (by omega))).mono ?_ (fun _ _ h => h)
        rintro r' l' ⟨s, vs, rfl, h4, h5⟩
        refine ⟨w :: s, x :: vs, by simp, ?_, by simpa using ht.trans h5⟩
        simpa [h1] using NameSeq.blank _ _ _ h2 h4
      · exact ⟨[], [], by simp, .nil, ht⟩

theorem parseFieldNames_sat {H : Halt → Prop} {l : Lexer} (hg : Good l) :
    Sat H (fun r l' => ∃ ts, NamesToks r (words ts) ∧ Took l ts l') (Fail sm l) (parseFieldNames l) := by
  unfold parseFieldNames
  refine Sat.step (Took.refl hg)
    ((parseFieldName_sat (sm := sm) hg).mono (fun _ _ h => h) (fun _ _ h => h.1)) ?_
  rintro r l2 ⟨x, h1, h2, h3⟩
  rw [sat_bound]
  refine (Sat.tail (E := Fail sm) h3 (fieldNamesLoop_sat _ h3.good (by omega))).mono ?_ (fun _ _ h => h)
  rintro r' l' ⟨s, vs, rfl, h4, h5⟩
  refine ⟨[x] ++ vs, ?_, h3.trans h5⟩
  rw [words_append]
  simpa [h1] using names_of_seq (.one _ h2) h4

theorem parseReservedBody_sat {H : Halt → Prop} {l : Lexer} (hg : Good l) :
    Sat H (fun r l' => ∃ ts, Took l ts l' ∧ ((RangesToks r.1 (words ts) ∧ r.2 = []) ∨
        (∃ js us, ts = js ++ us ∧ (words js = [] ∨ RangesCut (words js)) ∧ NamesToks r.2 (words us) ∧ r.1 = [])))
      (Fail sm l) (parseReservedBody l) := by
  unfold parseReservedBody
  refine Sat.bind (Q := fun r l2 => (∃ x ts, r = .ok x ∧ RangesToks x (words ts) ∧ Took l ts l2) ∨
      (∃ e, r = .error e ∧ FailJ sm (fun js => js = [] ∨ RangesCut js) (Begins RangesToks) l e l2))
    (Sat.attempt (parseRanges_cut (sm := sm) hg) ?_ ?_) ?_
  · rintro w l2 ⟨ts, h1, h2⟩
    exact .inl ⟨w, ts, rfl, h1, h2⟩
  · rintro e l2 h
    exact .inr ⟨e, rfl, h⟩
  rintro r l2 (⟨x, ts, rfl, h1, h2⟩ | ⟨e, rfl, hf⟩)
  · exact ⟨ts, h2, .inl ⟨h1, rfl⟩⟩
  · obtain ⟨js, ht, hj⟩ := hf.left
    refine Sat.bind (Q := fun r l3 => (∃ x ts, r = .ok x ∧ NamesToks x (words ts) ∧ Took l2 ts l3) ∨
        (∃ e, r = .error e ∧ Fail sm l2 e l3))
      (Sat.attempt (parseFieldNames_sat (sm := sm) ht.good) ?_ ?_) ?_
    · rintro w l2 ⟨ts, h1, h2⟩
      exact .inl ⟨w, ts, rfl, h1, h2⟩
    · rintro e l2 h
      exact .inr ⟨e, rfl, h⟩
    rintro r l3 (⟨x, ts, rfl, h1, h2⟩ | ⟨e', rfl, hf'⟩)
    · refine ⟨js ++ ts, ht.trans h2, .inr ⟨js, ts, rfl, hj.resolve_right (fun h => ?_), h1, rfl⟩⟩
      have := (h2.ended h.1).2
      subst this
      generalize hx : words [] = xs at h1
      cases h1 <;> simp at hx
    · have hf' := hf'.trans ht
      exact ⟨hf'.took, .pair _ _ hf.err hf'.err, hf'.tpos⟩

theorem parseReserved_sat {H : Halt → Prop} {G : Gram} (hG : G.loose = true) {l : Lexer} (hg : Good l) :
    Sat H (fun r l' => ∃ ts, ReservedToks G r ts ∧ Took l ts l') (Fail sm l) (parseReserved l) := by
  unfold parseReserved
  refine step_expect (.with_ .kw) rfl (by simp) (by simp) (Took.refl hg) (fun x1 l1 g1 ht => ?_)
  rw [sat_position]
  refine Sat.step ht (parseReservedBody_sat ht.good) ?_
  rintro ⟨rs, ns⟩ l2 ⟨ts, h1, h2⟩
  have ht := ht.trans h1
  refine step_expect .next rfl (by simp) (by simp) ht (fun x3 l3 g3 ht => ?_)
  rw [sat_position]
  have hsp : Spans (x1 :: ts ++ [x3]) ⟨l1.pos.p, l3.pos.p⟩ := spans_mk g1.pos g3.pos
  refine ⟨_, ?_, ht⟩
  rcases h2 with ⟨h2, h3⟩ | ⟨js, us, rfl, hj, h2, h3⟩
  · exact .inl ⟨_, h2, h3, by simp [g1.kw rfl, g3.punct rfl], by simpa using hsp⟩
  · exact .inr ⟨words js, _, h2, h3, hj.imp id (fun h => ⟨hG, h⟩), by simp [g1.kw rfl, g3.punct rfl], by simpa using hsp⟩

/-! ## Declarations -/

/-- The effect of an item on the local variables. -/
def DeclAcc.upd (a : DeclAcc) : DeclItem → DeclAcc
  | .number w => { a with number := w }
  | .fullName w => { a with fullName := w }
  | .type w => { a with type := w }
  | .repeated w => { a with repeated := decide (w = c!"true") }
  | .reserved w => { a with reserved := decide (w = c!"true") }

theorem lastItem_cons {α : Type} (sel : DeclItem → Option α) (d : α) (i : DeclItem) (is : List DeclItem) :
    lastItem sel d (i :: is) = lastItem sel ((sel i).getD d) is := by
  unfold lastItem
  rw [List.filterMap_cons]
  cases h : sel i with
  | none => simp
  | some x => simp [List.getLast?_cons]

theorem foldl_upd (is : List DeclItem) : ∀ (a : DeclAcc),
    is.foldl DeclAcc.upd a = ⟨lastItem selNumber a.number is, lastItem selFullName a.fullName is,
      lastItem selType a.type is, lastItem selRepeated a.repeated is,
      lastItem selReserved a.reserved is⟩ := by
  induction is with
  | nil => intro a; simp [lastItem]
  | cons i is ih =>
    intro a
    rw [List.foldl_cons, ih]
    simp only [lastItem_cons]
    cases i <;> rfl

theorem parseDeclItem_sat {H : Halt → Prop} {a : DeclAcc} {l : Lexer} (hg : Good l) :
    Sat H (fun r l' => ∃ i ts, r = a.upd i ∧ DeclItemToks i (words ts) ∧ Took l ts l')
      (FailR sm l) (parseDeclItem a (nextSt .kw l)) := by
  unfold parseDeclItem
  rw [sat_tok]
  have key : ∀ {t : Token} {s : Str}, (nextSt .kw l).token = t → spelling t = some s → t ≠ .eof →
      t ≠ .illegal → ∃ x, x.text = s ∧ Took l [x] (nextSt .kw l) := by
    intro t s h hs h1 h2
    exact ⟨_, (got_next (m := .kw) rfl h h1 h2).kw hs, next_took hg rfl (by rw [h]; exact h1)⟩
  refine sat_ite (fun h => ?_) (fun h1 => ?_)
  · obtain ⟨x1, e1, ht⟩ := key h rfl (by simp) (by simp)
    generalize nextSt .kw l = l1 at ht
    refine step_expect .next rfl (by simp) (by simp) ht (fun x2 l2 g2 ht => ?_)
    refine step_expect (.with_ _) rfl (by simp) (by simp) ht (fun x3 l3 g3 ht => ?_)
    refine ⟨.number l3.text, _, rfl, ?_, ht⟩
    simpa [e1, g2.punct rfl, g3.text] using DeclItemToks.number l3.text (by rw [← g3.text]; exact g3.reads)
  refine sat_ite (fun h => ?_) (fun h2 => ?_)
  · obtain ⟨x1, e1, ht⟩ := key h rfl (by simp) (by simp)
    generalize nextSt .kw l = l1 at ht
    refine step_expect .next rfl (by simp) (by simp) ht (fun x2 l2 g2 ht => ?_)
    refine step_expect (.with_ _) rfl (by simp) (by simp) ht (fun x3 l3 g3 ht => ?_)
    refine ⟨.fullName l3.text, _, rfl, ?_, ht⟩
    simpa [e1, g2.punct rfl, g3.text] using DeclItemToks.fullName l3.text (by rw [← g3.text]; exact g3.reads)
  refine sat_ite (fun h => ?_) (fun h3 => ?_)
  · obtain ⟨x1, e1, ht⟩ := key h rfl (by simp) (by simp)
    generalize nextSt .kw l = l1 at ht
    refine step_expect .next rfl (by simp) (by simp) ht (fun x2 l2 g2 ht => ?_)
    refine step_expect (.with_ _) rfl (by simp) (by simp) ht (fun x3 l3 g3 ht => ?_)
    refine ⟨.type l3.text, _, rfl, ?_, ht⟩
    simpa [e1, g2.punct rfl, g3.text] using DeclItemToks.type l3.text (by rw [← g3.text]; exact g3.reads)
  refine sat_ite (fun h => ?_) (fun h4 => ?_)
  · obtain ⟨x1, e1, ht⟩ := key h rfl (by simp) (by simp)
    generalize nextSt .kw l = l1 at ht
    refine step_expect .next rfl (by simp) (by simp) ht (fun x2 l2 g2 ht => ?_)
    refine step_expect .next rfl (by simp) (by simp) ht (fun x3 l3 g3 ht => ?_)
    refine ⟨.repeated l3.text, _, rfl, ?_, ht⟩
    simpa [e1, g2.punct rfl, g3.text] using DeclItemToks.repeated l3.text (by rw [← g3.text]; exact g3.reads.1)
  refine sat_ite (fun h => ?_) (fun h5 => ?_)
  · obtain ⟨x1, e1, ht⟩ := key h rfl (by simp) (by simp)
    generalize nextSt .kw l = l1 at ht
    refine step_expect .next rfl (by simp) (by simp) ht (fun x2 l2 g2 ht => ?_)
    refine step_expect .next rfl (by simp) (by simp) ht (fun x3 l3 g3 ht => ?_)
    refine ⟨.reserved l3.text, _, rfl, ?_, ht⟩
    simpa [e1, g2.punct rfl, g3.text] using DeclItemToks.reserved l3.text (by rw [← g3.text]; exact g3.reads.1)
  · exact sat_unexpected rfl (Took.refl hg)

theorem declItem_pos {i : DeclItem} {ts : List Tok} (h : DeclItemToks i (words ts)) : 0 < ts.length := by
  cases ts with
  | nil => simp only [words_nil] at h; cases h
  | cons => simp

theorem declLoop_sat {H : Halt → Prop} (n : Nat) :
    ∀ {l : Lexer} {a : DeclAcc}, Good l → l.scanner.inp.length < n →
    Sat H (fun r l' => ∃ is us x, r = is.foldl DeclAcc.upd a ∧ DeclItems is (words us) ∧
        x.text = c!"}" ∧ x.pos = l'.pos.p ∧ Took l (us ++ [x]) l' ∧ l'.token = .rightCurly)
      (FailR sm l) (declLoop n a l) := by
  induction n with
  | zero => intro _ _ _ h; omega
  | succ n ih =>
    intro l a hg hn
    unfold declLoop
    refine sat_next hg ?_
    rw [sat_tok]
    refine sat_ite (fun h => ?_) (fun h0 => ?_)
    · have g := got_next (m := {}) rfl h (by simp) (by simp)
      exact ⟨[], [], _, rfl, .nil, g.punct rfl, rfl, next_took hg rfl (by rw [h]; simp), h⟩
    refine sat_ite (fun h => ?_) (fun h => ?_)
    · refine sat_unNext ?_
      have ht := took_putBack hg {}
      generalize putBack {} l = l1 at ht
      refine sat_nextWith ht.good ?_
      refine Sat.bind' (parseDeclItem_sat (sm := sm) ht.good) (fun _ _ he => he.trans ht) ?_
      rintro r l2 ⟨i, us, rfl, h1, h2⟩
      have ht := ht.trans h2
      have hl := ht.length
      have := declItem_pos h1
      simp at hl
      refine (Sat.tailR (E := FailR sm) ht (ih ht.good (by omega))).mono ?_ (fun _ _ h => h)
      rintro r' l' ⟨is, vs, x, rfl, h3, h4, h5, h6, h7⟩
      refine ⟨i :: is, us ++ vs, x, rfl, ?_, h4, h5, by simpa using ht.trans h6, h7⟩
      simpa using DeclItems.plain _ _ _ _ h1 h3
    · have hk : (nextSt {} l).token = .comma := by simpa using h
      have g := got_next (m := {}) rfl hk (by simp) (by simp)
      have ht := next_took hg (m := {}) rfl (by rw [hk]; simp)
      generalize nextSt {} l = l1 at ht g
      generalize nextTok {} l = x1 at ht g
      refine sat_nextWith ht.good ?_
      refine Sat.bind' (parseDeclItem_sat (sm := sm) ht.good) (fun _ _ he => he.trans ht) ?_
      rintro r l2 ⟨i, us, rfl, h1, h2⟩
      have ht := ht.trans h2
      have hl := ht.length
      simp at hl
      refine (Sat.tailR (E := FailR sm) ht (ih ht.good (by omega))).mono ?_ (fun _ _ h => h)
      rintro r' l' ⟨is, vs, x, rfl, h3, h4, h5, h6, h7⟩
      refine ⟨i :: is, x1 :: us ++ vs, x, rfl, ?_, h4, h5, by simpa using ht.trans h6, h7⟩
      simpa [g.punct rfl] using DeclItems.comma _ _ _ _ h1 h3

theorem parseDeclaration_sat {H : Halt → Prop} {l : Lexer} (hg : Good l) :
    Sat H (fun r l' => ∃ seg, ComDeclaration r seg ∧ seg ≠ [] ∧ TookI l seg l' ∧ r.inlineComment = none)
      (FailR sm l) (parseDeclaration l) := by
  unfold parseDeclaration
  refine step_expect (.with_ .kw) rfl (by simp) (by simp) (Took.refl hg) (fun x1 l1 g1 ht => ?_)
  rw [sat_position]
  refine step_expect .next rfl (by simp) (by simp) ht (fun x2 l2 g2 ht => ?_)
  refine step_expect .next rfl (by simp) (by simp) ht (fun x3 l3 g3 ht => ?_)
  obtain ⟨hd, ht, e1, e2, _⟩ := ht.seg (real_of g3.token)
  have hu : UpTo c!"{" x3 hd := e2.upTo e1 (g3.punct rfl) (by
    intro t h
    simp only [List.nil_append, List.cons_append, List.mem_cons, List.not_mem_nil, or_false] at h
    rcases h with rfl | rfl
    · rw [g1.kw rfl]; decide
    · rw [g2.punct rfl]; decide)
  refine stepI_inline ht (fun c l4 ht hi => ?_)
  rw [sat_bound]
  refine Sat.stepR ht.took (declLoop_sat _ ht.good (by omega)) ?_
  rintro r l5 ⟨is, us, x, rfl, h1, h2, h3, h4, h5⟩
  obtain ⟨js, h4, e3, e4, _⟩ := h4.seg (real_of h5)
  have ht := ht.trans h4
  rw [sat_position]
  have hb := hi.behind (n := x3.pos.line) (by rw [g3.pos]) h4
  have et : toks (hd ++ opt c ++ js) = [x1, x2, x3] ++ us ++ [x] := by simp [toks_append, e1, e3]
  refine ⟨hd ++ opt c ++ js, ⟨⟨is, words us, h1, ?_⟩, hd, x3, js, hu, by simp only [foldl_upd], by simpa only [foldl_upd]⟩, ?_,
    ht, by simp only [foldl_upd]⟩
  · simp only [foldl_upd]
    rw [et]
    refine ⟨trivial, trivial, trivial, trivial, trivial, by simp [g1.kw rfl, g2.punct rfl, g3.punct rfl, h2], ?_⟩
    simpa using spans_mk (a := x1) (mid := [x2, x3] ++ us) (b := x) (info := ⟨l1.pos.p, l5.pos.p⟩) g1.pos h3
  · intro e
    rw [e] at et
    simp at et

theorem assign_toks {d : Declaration} {ts : List Item} (h : ComDeclaration d ts) (cs : List Comment)
    (c1 c2 : Option Comment) : ComDeclaration (assignInlineComments { d with comments := cs } c1 c2) ts := by
  cases c1 <;> cases c2 <;> exact h

theorem assign_orLast {d : Declaration} (h : d.inlineComment = none) (cs : List Comment)
    (c1 c2 : Option Comment) :
    (assignInlineComments { d with comments := cs } c1 c2).inlineComment = orLast c1 c2 := by
  cases c1 <;> cases c2 <;> first | rfl | exact h

theorem assign_comments {d : Declaration} {cs : List Comment} {c1 c2 : Option Comment} :
    (assignInlineComments { d with comments := cs } c1 c2).comments = cs := by
  cases c1 <;> cases c2 <;> rfl

/-- The line on which the second inline comment is looked for is that of the first. -/
theorem Inline.line {l l' : Lexer} {o : Option Comment} {n : Int} (h : Inline l o l') (h1 : l.pos.p.line = n)
    (h2 : l.scanner.pos.p.line = n) : l'.pos.p.line = n := by
  cases o with
  | none => rw [(h.none rfl).2, h2]
  | some c => rw [(h.some c rfl).2, h1]

theorem declarationsLoop_sat {H : Halt → Prop} (n : Nat) :
    ∀ {l : Lexer} {acc : List Declaration}, Good l → l.scanner.inp.length < n →
    Sat H (fun r l' => ∃ s us ds x, r = acc ++ s ∧ DeclarationList s ds ∧ x.text = c!"]" ∧
        toks us = ds ++ [x] ∧ TookI l us l' ∧
        ∀ tl l'', TookI l' tl l'' → words (toks tl) = [c!";"] → ComDeclarations s (us ++ tl))
      (Fail sm l) (declarationsLoop n acc l) := by
  induction n with
  | zero => intro _ _ _ h; omega
  | succ n ih =>
    intro l acc hg hn
    unfold declarationsLoop
    refine stepI_comments (TookI.refl hg) (fun cs l1 ht hnc => ?_)
    refine Sat.stepR ht.took (parseDeclaration_sat ht.good) ?_
    rintro d l2 ⟨us, h1, h0, h2, hin⟩
    have hst := hnc.starts h2 h0
    have ht := ht.trans h2
    have h1' := fun c1 c2 => assign_toks h1 cs c1 c2
    have h2' := fun c1 c2 => assign_orLast hin cs c1 c2
    have h3' := fun c1 c2 => @assign_comments d cs c1 c2
    generalize { d with comments := cs } = d at h1' h2' h3'
    refine sat_next ht.good ?_
    rw [sat_tok]
    by_cases h : (nextSt {} l2).token = .rightSquare
    · have g := got_next (m := {}) rfl h (by simp) (by simp)
      obtain ⟨lost, k, _⟩ := next_items ht.good (m := {}) rfl (real_of h)
      have hln := got_line rfl (by simp) (by simp) g (g.punct rfl) (by decide)
      have hp := g.pos
      generalize nextSt {} l2 = l2' at *
      generalize nextTok {} l2 = x at *
      have ht := ht.trans k
      refine stepI_inline ht (fun c1 l3 ht hi1 => ?_)
      rw [if_pos h]
      refine stepI_inline ht (fun c2 l4 ht hi2 => ?_)
      refine ⟨[assignInlineComments d c1 c2], _, toks us, x, rfl, .one _ _ (h1' c1 c2).1, g.punct rfl, ?_, ht, ?_⟩
      · simp [toks_append]
      · intro tl l'' k3 k4
        have := ComDeclarations.last _ us lost x c1 c2 tl (h1' c1 c2) hst (g.punct rfl) (h2' c1 c2)
          (hi1.behind (by rw [hp]) (hi2.took.trans k3)) (hi2.behind (hi1.line (by rw [hp]) hln) k3) k4
        simpa [h3'] using this
    by_cases h3 : (nextSt {} l2).token = .comma
    · have g := got_next (m := {}) rfl h3 (by simp) (by simp)
      obtain ⟨lost, k, _⟩ := next_items ht.good (m := {}) rfl (real_of h3)
      have hln := got_line rfl (by simp) (by simp) g (g.punct rfl) (by decide)
      have hp := g.pos
      generalize nextSt {} l2 = l2' at *
      generalize nextTok {} l2 = x at *
      have ht := ht.trans k
      refine stepI_inline ht (fun c1 l3 ht hi1 => ?_)
      rw [if_neg h, if_neg (by simpa using h3)]
      refine stepI_inline ht (fun c2 l4 ht hi2 => ?_)
      have hl := ht.took.length
      simp [toks_append] at hl
      refine (Sat.tail (E := Fail sm) ht.took (ih ht.good (by omega))).mono ?_ (fun _ _ h => h)
      rintro r' l' ⟨s, vs, ds, y, rfl, h4, h5, h6, h7, h8⟩
      refine ⟨assignInlineComments d c1 c2 :: s, _, toks us ++ x :: ds, y, by simp,
        .more _ _ _ _ _ (h1' c1 c2).1 (g.punct rfl) h4, h5, ?_, ht.trans h7, ?_⟩
      · simp [toks_append, h6]
      · intro tl l'' k3 k4
        have k5 := h7.trans k3
        have := ComDeclarations.more _ us lost x c1 c2 s _ (h1' c1 c2) hst (g.punct rfl) (h2' c1 c2)
          (hi1.behind (by rw [hp]) (hi2.took.trans k5)) (hi2.behind (hi1.line (by rw [hp]) hln) k5) (h8 tl l'' k3 k4)
        simpa [h3'] using this
    · obtain ⟨ws, hany⟩ := any_took ht.good (m := {}) rfl
      have ht := ht.took.trans hany
      refine step_inline ht (fun c1 l3 ht' hp _ => ?_)
      rw [if_neg h, if_pos h3]
      have hp := hp.trans ht
      exact ⟨⟨_, ht'⟩, .single _ _ _ hp, hp⟩

theorem parseDeclarations_sat {H : Halt → Prop} {l : Lexer} (hg : Good l) :
    Sat H (fun r l' => ∃ ts, Declarations r.1 ts ∧ Took l ts l' ∧
        ((r = ([], none) ∧ ts = []) ∨ ∃ lost x us, x.text = c!"[" ∧ toks us = ts.drop 1 ∧
          ts.head? = some x ∧ TookI l (coms lost ++ .tok x :: opt r.2 ++ us) l' ∧
          ∀ tl l'', TookI l' tl l'' → words (toks tl) = [c!";"] →
            Behind x.pos.line r.2 (us ++ tl) ∧ ComDeclarations r.1 (us ++ tl)))
      (Fail sm l) (parseDeclarations l) := by
  unfold parseDeclarations
  refine sat_next hg ?_
  rw [sat_tok]
  refine sat_ite (fun h => ?_) (fun h => ?_)
  · refine sat_unNext ?_
    exact ⟨[], .none, took_putBack hg _, .inl ⟨rfl, rfl⟩⟩
  have hk : (nextSt {} l).token = .leftSquare := by simpa using h
  have g := got_next (m := {}) rfl hk (by simp) (by simp)
  obtain ⟨lost, ht, _⟩ := next_items hg (m := {}) rfl (real_of hk)
  generalize nextSt {} l = l1 at ht g
  generalize nextTok {} l = x1 at ht g
  refine stepI_inline ht (fun c1 l2 ht hi => ?_)
  rw [sat_bound]
  refine Sat.step ht.took (declarationsLoop_sat _ ht.good (by omega)) ?_
  rintro r l3 ⟨s, us, ds, x, rfl, h1, h2, h3, h4, h5⟩
  have ht := ht.trans h4
  refine ⟨x1 :: ds ++ [x], .some _ _ _ _ (g.punct rfl) h1 h2, ?_, .inr ⟨lost, x1, us, g.punct rfl, h3, rfl, ?_, ?_⟩⟩
  · simpa [toks_append, h3] using ht.took
  · simpa using ht
  · exact fun tl l'' k1 k2 => ⟨hi.behind (by rw [g.pos]) (h4.trans k1), h5 tl l'' k1 k2⟩

theorem int_ne {w : Str} (h : IntLit w) : w ≠ c!"[" := by
  rintro rfl
  cases h with
  | decimal _ _ h => revert h; decide

theorem range_words {r : Verif.Range} {ws : List Str} (h : RangeToks r ws) : ∀ w ∈ ws, w ≠ c!"[" := by
  cases h with
  | one w h =>
    intro v hv
    simp only [List.mem_singleton] at hv
    subst hv
    exact int_ne h
  | to w e h h' =>
    intro v hv
    simp only [List.mem_cons, List.not_mem_nil, or_false] at hv
    rcases hv with rfl | rfl | rfl
    · exact int_ne h
    · decide
    · rcases h' with h' | rfl
      · exact int_ne h'
      · decide

theorem ranges_words {r : List Verif.Range} {ws : List Str} (h : RangesToks r ws) : ∀ w ∈ ws, w ≠ c!"[" := by
  induction h with
  | one r ws h => exact range_words h
  | more rs ws r ws' _ h2 ih =>
    intro v hv
    simp only [List.mem_append, List.mem_cons] at hv
    rcases hv with hv | rfl | hv
    · exact ih v hv
    · decide
    · exact range_words h2 v hv

theorem parseExtensions_sat {H : Halt → Prop} {l : Lexer} (hg : Good l) :
    Sat H (fun r l' => ∃ ts, ExtensionsToks r ts ∧ Took l ts l' ∧ r.inlineComment = none ∧
        ∀ G b cs, SegOut G b l (.extensions { r with comments := cs }) ts l')
      (Fail sm l) (parseExtensions l) := by
  unfold parseExtensions
  refine step_expect (.with_ .kw) rfl (by simp) (by simp) (Took.refl hg) (fun x1 l1 g1 ht => ?_)
  rw [sat_position]
  refine Sat.step ht (parseRanges_sat ht.good) ?_
  rintro rs l2 ⟨us, h1, h2⟩
  have ht1 := ht.trans h2
  refine Sat.step ht1 (parseDeclarations_sat ht1.good) ?_
  rintro ⟨ds, c⟩ l3 ⟨vs, h3, h4, h5⟩
  have ht := ht1.trans h4
  refine step_expect .next rfl (by simp) (by simp) ht (fun x4 l4 g4 ht4 => ?_)
  rw [sat_position]
  refine ⟨_, ⟨x1, us, vs, x4, g1.kw rfl, h1, h3, g4.punct rfl, rfl, ?_⟩, by simpa using ht4, rfl, ?_⟩
  · simpa using spans_mk (a := x1) (mid := us ++ vs) (b := x4) (info := ⟨l1.pos.p, l4.pos.p⟩) g1.pos g4.pos
  · intro G b cs
    have hus : ∀ t, t = x1 ∨ t ∈ us → t.text ≠ c!"[" := by
      rintro t (rfl | h)
      · rw [g1.kw rfl]; decide
      · exact ranges_words h1 _ (List.mem_map_of_mem h)
    have hx4 : x4 = nextTok {} l3 := g4.tok rfl (by simp) (by simp)
    rcases h5 with ⟨e, rfl⟩ | ⟨lost, x, ws, k1, k2, k3, k4, k5⟩
    · simp only [Prod.mk.injEq] at e
      obtain ⟨rfl, rfl⟩ := e
      obtain ⟨seg, k1, k2, k3, _⟩ := ht4.seg (real_of g4.token)
      refine ⟨seg, x4, by simpa using k2, k1, k3, by rw [g4.pos], fun _ _ => .noDeclarations _ _ rfl rfl ?_⟩
      rw [k2]
      intro t h
      simp only [List.mem_append, List.mem_singleton, List.not_mem_nil, or_false, List.mem_cons, List.nil_append] at h
      rcases h with (rfl | h) | rfl
      · exact hus t (.inl rfl)
      · exact hus t (.inr h)
      · rw [g4.punct rfl]; decide
    · obtain ⟨hd, j1, j2⟩ := ht1.items
      obtain ⟨lost2, j3, _⟩ := next_items h4.good (m := {}) rfl (real_of g4.next)
      rw [← g4.eq, ← hx4] at j3
      have hw : words (toks (coms lost2 ++ [.tok x4])) = [c!";"] := by simp [toks_append, g4.punct rfl]
      obtain ⟨m1, m2⟩ := k5 _ _ j3 hw
      have hall := (j1.trans k4).trans j3
      have hu : UpTo c!"[" x (hd ++ coms lost ++ [.tok x]) := by
        refine ⟨k1, hd ++ coms lost, rfl, ?_⟩
        simp only [toks_append, toks_coms, List.append_nil, j2]
        intro t h
        simp only [List.nil_append, List.mem_append, List.mem_singleton] at h
        exact hus t h
      have hv : vs = x :: toks ws := by
        cases vs with
        | nil => simp at k3
        | cons v vs =>
          simp only [List.head?_cons, Option.some.injEq] at k3
          subst k3
          rw [k2]; rfl
      refine ⟨hd ++ coms lost ++ [.tok x] ++ opt c ++ (ws ++ (coms lost2 ++ [.tok x4])), x4, ?_, ?_, ?_, by rw [g4.pos],
        fun _ _ => .extensions _ _ _ _ hu m2 m1⟩
      · simp [toks_append, j2, hv]
      · simpa using hall
      · exact ⟨hd ++ coms lost ++ [.tok x] ++ opt c ++ (ws ++ coms lost2), by simp⟩

end Parser
end Verif
