import Verif.Proofs.ViableField

/-!
# Where errors are reported: reserved, extensions
-/

set_option backward.isDefEq.respectTransparency false
set_option backward.dsimp.instances true

namespace Verif
open Spec Scanner Lexer
open M (bind_ok run_get)

variable {sm : Bool}

/-- `V`, or the last word is one too many: it stands behind a right curly, where a right square would be possible. -/
def Tardy (V : List Str → Prop) (ws : List Str) : Prop :=
  V ws ∨ ∃ us w, ws = us ++ [w] ∧ us.getLast? = some c!"}" ∧ V (us ++ [c!"]"])

theorem Tardy.map {V V1 : List Str → Prop} {p ws : List Str} (h : Tardy V1 ws) (hV : ∀ ws, V1 ws → V (p ++ ws)) :
    Tardy V (p ++ ws) := by
  rcases h with h | ⟨us, w, rfl, h1, h2⟩
  · exact .inl (hV _ h)
  · refine .inr ⟨p ++ us, w, by simp, ?_, by simpa using hV _ h2⟩
    cases us with
    | nil => simp at h1
    | cons u us => rw [List.getLast?_append, h1]; rfl

namespace Parser

theorem errsAt_putBack {l : Lexer} (hg : Good l) (s : String) (f : Found) {B : List Str → Prop} (hB : B []) :
    ErrsAt sm B l (.single l.scanner.pos.p s f) :=
  .single _ _ _ (before_here (Took.refl hg) hB)

theorem begins_range : Begins RangeToks [] := ⟨_, _, .one c!"1" int_one⟩

theorem parseRange_via {H : Halt → Prop} {l : Lexer} (hg : Good l) :
    Sat H (fun _ _ => True) (FailV sm (Begins RangeToks) l) (parseRange l) := by
  unfold parseRange
  refine sat_nextWith hg ?_
  rw [sat_tok]
  refine sat_ite (fun h => ?_) (fun h => ?_)
  · refine sat_unNext ?_
    exact errsAt_putBack hg _ _ begins_range
  have hk : (nextSt .numberLit l).token = .intLit := by simpa using h
  have g := got_next (m := .numberLit) rfl hk (by simp) (by simp)
  have ht := next_took hg (m := .numberLit) rfl (by rw [hk]; simp)
  generalize nextSt .numberLit l = l1 at ht g
  generalize nextTok .numberLit l = x1 at ht g
  have hi : IntLit x1.text := g.reads
  rw [sat_txt]
  refine sat_next ht.good ?_
  rw [sat_txt]
  refine sat_ite (fun h => ?_) (fun h => ?_)
  · refine sat_unNext ?_
    trivial
  obtain ⟨h2, h3⟩ := next_of_text ht.good (m := {}) rfl (Decidable.not_not.1 h) (by simp)
  have ht := ht.trans h3
  generalize nextSt {} l1 = l2 at ht
  generalize nextTok {} l1 = x2 at ht h2
  refine sat_nextWith ht.good ?_
  rw [sat_tok, sat_txt]
  refine sat_ite (fun h => trivial) (fun h => unexpected_via ht (?_))
  exact ⟨_, [c!"max"], by simpa [h2] using RangeToks.to _ _ hi (.inr rfl)⟩

theorem rangesLoop_via {H : Halt → Prop} (n : Nat) :
    ∀ {l : Lexer} {acc : List Range}, Good l → l.scanner.inp.length < n →
    Sat H (fun _ _ => True) (FailV sm (Begins RangeTail) l) (rangesLoop n acc l) := by
  induction n with
  | zero => intro _ _ _ h; omega
  | succ n ih =>
    intro l acc hg hn
    unfold rangesLoop
    refine sat_next hg ?_
    rw [sat_tok]
    refine sat_ite (fun h => ?_) (fun h => ?_)
    · refine sat_unNext ?_
      trivial
    have hk : (nextSt {} l).token = .comma := by simpa using h
    have g := got_next (m := {}) rfl hk (by simp) (by simp)
    have ht := next_took hg (m := {}) rfl (by rw [hk]; simp)
    generalize nextSt {} l = l1 at ht g
    generalize nextTok {} l = x1 at ht g
    refine Sat.via ht ((parseRange_sat (sm := sm) ht.good).and' (parseRange_via ht.good)) ?_ ?_
    · rintro ws _ ⟨s, more, hs⟩
      exact ⟨_, more, by simpa [g.punct rfl] using RangeTail.cons _ _ _ _ hs .nil⟩
    rintro r l2 ⟨us, h1, h2⟩
    have ht := ht.trans h2
    have hl := ht.length
    simp at hl
    refine Sat.tailVia ht (ih ht.good (by omega)) ?_
    rintro ws _ ⟨s, more, hs⟩
    exact ⟨_, more, by simpa [g.punct rfl] using RangeTail.cons _ _ _ _ h1 hs⟩

theorem parseRanges_via {H : Halt → Prop} {l : Lexer} (hg : Good l) :
    Sat H (fun _ _ => True) (FailV sm (Begins RangesToks) l) (parseRanges l) := by
  unfold parseRanges
  refine Sat.via (Took.refl hg) ((parseRange_sat (sm := sm) hg).and' (parseRange_via hg)) ?_ ?_
  · rintro ws _ ⟨s, more, hs⟩
    exact ⟨_, more, .one _ _ hs⟩
  rintro r l2 ⟨us, h1, h2⟩
  rw [sat_bound]
  refine Sat.tailVia h2 (rangesLoop_via _ h2.good (by omega)) ?_
  rintro ws _ ⟨s, more, hs⟩
  exact ⟨_, more, by rw [List.append_assoc]; exact ranges_of_tail (.one _ _ h1) hs⟩

/-! ## Names -/

theorem parseFieldName_via {H : Halt → Prop} {l : Lexer} (hg : Good l) :
    Sat H (fun _ _ => True) (FailV sm (· = []) l) (parseFieldName l) := by
  unfold parseFieldName
  refine Sat.bind (Q := fun r l2 => (∃ w, r = .ok w) ∨ (∃ e, r = .error e ∧ Took l [] l2))
    (Sat.attempt (parseQuotedFieldName_sat (sm := sm) hg) ?_ ?_) ?_
  · rintro w l2 ⟨x, h1, h2, h3⟩
    exact .inl ⟨w, rfl⟩
  · rintro e l2 ⟨_, h⟩
    exact .inr ⟨e, rfl, h⟩
  rintro r l2 (⟨w, rfl⟩ | ⟨e, rfl, ht⟩)
  · trivial
  · refine sat_next ht.good ?_
    rw [sat_tok]
    refine sat_ite (fun h => ?_) (fun h => trivial)
    refine sat_unNext ?_
    exact ErrsAt.trans (B1 := (· = [])) ht (errsAt_putBack ht.good _ _ rfl) (by rintro _ _ rfl; rfl)

theorem name_a : ReservedName c!"a" := .inr word_a

theorem fieldNamesLoop_via {H : Halt → Prop} (n : Nat) :
    ∀ {l : Lexer} {acc : List Str}, Good l → l.scanner.inp.length < n →
    Sat H (fun _ _ => True) (FailV sm (Begins NameSeq) l) (fieldNamesLoop n acc l) := by
  induction n with
  | zero => intro _ _ _ h; omega
  | succ n ih =>
    intro l acc hg hn
    unfold fieldNamesLoop
    refine sat_next hg ?_
    rw [sat_tok]
    refine sat_ite (fun h => ?_) (fun h => ?_)
    · have g := got_next (m := {}) rfl h (by simp) (by simp)
      have ht := next_took hg (m := {}) rfl (by rw [h]; simp)
      generalize nextSt {} l = l1 at ht g
      generalize nextTok {} l = x1 at ht g
      refine Sat.via ht ((parseFieldName_sat (sm := sm) ht.good).and' (parseFieldName_via ht.good)) ?_ ?_
      · rintro _ _ rfl
        exact ⟨_, [c!"a"], by simpa [g.punct rfl] using NameSeq.comma _ _ _ name_a .nil⟩
      rintro r l2 ⟨x2, h1, h2, h3⟩
      have ht := ht.trans h3
      have hl := ht.length
      simp at hl
      refine Sat.tailVia ht (ih ht.good (by omega)) ?_
      rintro ws _ ⟨s, more, hs⟩
      exact ⟨_, more, by simpa [g.punct rfl, h1] using NameSeq.comma _ _ _ h2 hs⟩
    · refine sat_unNext ?_
      have ht := took_putBack hg {}
      refine Sat.bind (Q := fun r l2 => (∃ w x, r = .ok w ∧ x.text = w ∧ ReservedName w ∧ Took l [x] l2) ∨
          (∃ e, r = .error e ∧ Took l [] l2))
        (Sat.attempt (parseFieldName_sat (sm := sm) ht.good) ?_ ?_) ?_
      · rintro w l2 ⟨x, h1, h2, h3⟩
        exact .inl ⟨w, x, rfl, h1, h2, by simpa using ht.trans h3⟩
      · rintro e l2 ⟨_, h⟩
        exact .inr ⟨e, rfl, ht.trans h⟩
      rintro r l2 (⟨w, x, rfl, h1, h2, ht⟩ | ⟨e, rfl, ht⟩)
      · have hl := ht.length
        simp at hl
        refine Sat.tailVia ht (ih ht.good (by omega)) ?_
        rintro ws _ ⟨s, more, hs⟩
        exact ⟨_, more, by simpa [h1] using NameSeq.blank _ _ _ h2 hs⟩
      · trivial

theorem parseFieldNames_via {H : Halt → Prop} {l : Lexer} (hg : Good l) :
    Sat H (fun _ _ => True) (FailV sm (Begins NamesToks) l) (parseFieldNames l) := by
  unfold parseFieldNames
  refine Sat.via (Took.refl hg) ((parseFieldName_sat (sm := sm) hg).and' (parseFieldName_via hg)) ?_ ?_
  · rintro _ _ rfl
    exact ⟨_, [c!"a"], .one _ name_a⟩
  rintro r l2 ⟨x, h1, h2, h3⟩
  rw [sat_bound]
  refine Sat.tailVia h3 (fieldNamesLoop_via _ h3.good (by omega)) ?_
  rintro ws _ ⟨s, more, hs⟩
  exact ⟨_, more, by simpa [h1] using names_of_seq (.one _ h2) hs⟩

/-- The body of a `reserved` statement. -/
def ReservedBody (ws : List Str) : Prop :=
  (∃ rs, RangesToks rs ws) ∨ ∃ js us ns, ws = js ++ us ∧ (js = [] ∨ RangesCut js) ∧ NamesToks ns us

theorem parseReservedBody_via {H : Halt → Prop} {l : Lexer} (hg : Good l) :
    Sat H (fun _ _ => True) (FailV sm (fun ws => ∃ more, ReservedBody (ws ++ more)) l) (parseReservedBody l) := by
  unfold parseReservedBody
  refine Sat.bind (Q := fun r l2 => (∃ x, r = .ok x) ∨
      (∃ e, r = .error e ∧ FailJ sm (fun js => js = [] ∨ RangesCut js) (Begins RangesToks) l e l2 ∧ ErrsAt sm (Begins RangesToks) l e)) ?_ ?_
  · refine Sat.attempt (E := fun e l2 => FailJ sm (fun js => js = [] ∨ RangesCut js) (Begins RangesToks) l e l2 ∧ ErrsAt sm (Begins RangesToks) l e)
      (Q := fun _ _ => True) ?_ ?_ ?_
    · have h1 := parseRanges_cut (H := H) (sm := sm) hg
      have h2 := parseRanges_via (H := H) (sm := sm) hg
      revert h1 h2
      cases parseRanges l with
      | ok => exact fun _ _ => trivial
      | err => exact fun h1 h2 => ⟨h1, h2⟩
      | halt => exact fun h _ => h
    · rintro w l2 _
      exact .inl ⟨w, rfl⟩
    · rintro e l2 h
      exact .inr ⟨e, rfl, h⟩
  rintro r l2 (⟨x, rfl⟩ | ⟨e, rfl, hf, he⟩)
  · trivial
  · obtain ⟨js, ht, hj⟩ := hf.left
    refine Sat.bind (Q := fun r l3 => (∃ x, r = .ok x) ∨ (∃ e, r = .error e ∧ FailV sm (Begins NamesToks) l2 e l3))
      (Sat.attempt (parseFieldNames_via (sm := sm) ht.good) ?_ ?_) ?_
    · rintro w l2 _
      exact .inl ⟨w, rfl⟩
    · rintro e l2 h
      exact .inr ⟨e, rfl, h⟩
    rintro r l3 (⟨x, rfl⟩ | ⟨e', rfl, hf'⟩)
    · trivial
    · refine .pair _ _ (he.mono ?_) (ErrsAt.trans ht hf' ?_)
      · rintro ws ⟨rs, more, h⟩
        exact ⟨more, .inl ⟨rs, h⟩⟩
      · rintro ws hend ⟨ns, more, h⟩
        rcases hj with hj | ⟨hn, rs, more', hj⟩
        · exact ⟨more, .inr ⟨words js, _, ns, by rw [List.append_assoc], hj, h⟩⟩
        · rw [hend hn]
          exact ⟨more', .inl ⟨rs, by simpa using hj⟩⟩

theorem opens_reserved {G : Gram} (hG : G.loose = true) {ws : List Str} (h1 : ReservedBody ws)
    {vs more : List Str} (h : c!"reserved" :: ws ++ [c!";"] = vs ++ more) : Opens (ReservedToks G) vs := by
  obtain ⟨ts, info, h4⟩ := written_some (ws := c!"reserved" :: ws ++ [c!";"]) (by simp)
  rcases h1 with ⟨rs, h1⟩ | ⟨js, us, ns, rfl, h1, h2⟩
  · exact ⟨⟨rs, [], [], none, info⟩, ts, more, .inl ⟨ws, h1, rfl, h4⟩, h4.1.trans h⟩
  · exact ⟨⟨[], ns, [], none, info⟩, ts, more, .inr ⟨js, us, h2, rfl, h1.imp id (fun h => ⟨hG, h⟩), by simpa using h4⟩, h4.1.trans h⟩

theorem reservedBody_a : ReservedBody [c!"a"] := .inr ⟨[], [c!"a"], _, rfl, .inl rfl, .one _ name_a⟩

theorem parseReserved_via {H : Halt → Prop} {G : Gram} (hG : G.loose = true) {l : Lexer} (hg : Good l) :
    Sat H (fun _ _ => True) (FailV sm (Opens (ReservedToks G)) l) (parseReserved l) := by
  unfold parseReserved
  refine expect_via (.with_ .kw) rfl (by simp) (by simp) (Took.refl hg) (?_) (fun x1 l1 g1 ht => ?_)
  · exact opens_reserved hG reservedBody_a (by simp; rfl)
  rw [sat_position]
  refine Sat.via ht ((parseReservedBody_sat (sm := sm) ht.good).and' (parseReservedBody_via ht.good)) ?_ ?_
  · rintro ws _ ⟨more, h⟩
    exact opens_reserved hG h (more := more ++ [c!";"]) (by simp [g1.kw rfl])
  rintro ⟨rs, ns⟩ l2 ⟨ts, h1, h2⟩
  have ht := ht.trans h1
  have hb : ReservedBody (words ts) := by
    rcases h2 with ⟨h2, h3⟩ | ⟨js, us, rfl, hj, h2, h3⟩
    · exact .inl ⟨_, h2⟩
    · exact .inr ⟨words js, words us, _, by simp, hj, h2⟩
  refine expect_via .next rfl (by simp) (by simp) ht (?_) (fun x3 l3 g3 ht => ?_)
  · exact opens_reserved hG hb (more := [c!";"]) (by simp [g1.kw rfl])
  rw [sat_position]
  trivial

/-! ## Declarations -/

theorem parseDeclItem_via {H : Halt → Prop} {a : DeclAcc} {l : Lexer} (hg : Good l) :
    Sat H (fun _ _ => True) (FailV sm (Begins DeclItemToks) l) (parseDeclItem a (nextSt .kw l)) := by
  unfold parseDeclItem
  rw [sat_tok]
  have key : ∀ {t : Token} {s : Str}, (nextSt .kw l).token = t → spelling t = some s → t ≠ .eof →
      t ≠ .illegal → ∃ x, x.text = s ∧ Took l [x] (nextSt .kw l) := by
    intro t s h hs h1 h2
    exact ⟨_, (got_next (m := .kw) rfl h h1 h2).kw hs, next_took hg rfl (by rw [h]; exact h1)⟩
  refine sat_ite (fun h => ?_) (fun h1 => ?_)
  · obtain ⟨x1, e1, ht⟩ := key h rfl (by simp) (by simp)
    generalize nextSt .kw l = l1 at ht
    refine expect_via .next rfl (by simp) (by simp) ht (?_) (fun x2 l2 g2 ht => ?_)
    · exact ⟨_, [c!":", c!"1"], by simpa [e1] using DeclItemToks.number _ int_one⟩
    refine expect_via (.with_ _) rfl (by simp) (by simp) ht (?_) (fun x3 l3 g3 ht => trivial)
    exact ⟨_, [c!"1"], by simpa [e1, g2.punct rfl] using DeclItemToks.number _ int_one⟩
  refine sat_ite (fun h => ?_) (fun h2 => ?_)
  · obtain ⟨x1, e1, ht⟩ := key h rfl (by simp) (by simp)
    generalize nextSt .kw l = l1 at ht
    refine expect_via .next rfl (by simp) (by simp) ht (?_) (fun x2 l2 g2 ht => ?_)
    · exact ⟨_, [c!":", c!"\"\""], by simpa [e1] using DeclItemToks.fullName _ str_empty⟩
    refine expect_via (.with_ _) rfl (by simp) (by simp) ht (?_) (fun x3 l3 g3 ht => trivial)
    exact ⟨_, [c!"\"\""], by simpa [e1, g2.punct rfl] using DeclItemToks.fullName _ str_empty⟩
  refine sat_ite (fun h => ?_) (fun h3 => ?_)
  · obtain ⟨x1, e1, ht⟩ := key h rfl (by simp) (by simp)
    generalize nextSt .kw l = l1 at ht
    refine expect_via .next rfl (by simp) (by simp) ht (?_) (fun x2 l2 g2 ht => ?_)
    · exact ⟨_, [c!":", c!"\"\""], by simpa [e1] using DeclItemToks.type _ str_empty⟩
    refine expect_via (.with_ _) rfl (by simp) (by simp) ht (?_) (fun x3 l3 g3 ht => trivial)
    exact ⟨_, [c!"\"\""], by simpa [e1, g2.punct rfl] using DeclItemToks.type _ str_empty⟩
  refine sat_ite (fun h => ?_) (fun h4 => ?_)
  · obtain ⟨x1, e1, ht⟩ := key h rfl (by simp) (by simp)
    generalize nextSt .kw l = l1 at ht
    refine expect_via .next rfl (by simp) (by simp) ht (?_) (fun x2 l2 g2 ht => ?_)
    · exact ⟨_, [c!":", c!"a"], by simpa [e1] using DeclItemToks.repeated _ word_a⟩
    refine expect_via .next rfl (by simp) (by simp) ht (?_) (fun x3 l3 g3 ht => trivial)
    exact ⟨_, [c!"a"], by simpa [e1, g2.punct rfl] using DeclItemToks.repeated _ word_a⟩
  refine sat_ite (fun h => ?_) (fun h5 => ?_)
  · obtain ⟨x1, e1, ht⟩ := key h rfl (by simp) (by simp)
    generalize nextSt .kw l = l1 at ht
    refine expect_via .next rfl (by simp) (by simp) ht (?_) (fun x2 l2 g2 ht => ?_)
    · exact ⟨_, [c!":", c!"a"], by simpa [e1] using DeclItemToks.reserved _ word_a⟩
    refine expect_via .next rfl (by simp) (by simp) ht (?_) (fun x3 l3 g3 ht => trivial)
    exact ⟨_, [c!"a"], by simpa [e1, g2.punct rfl] using DeclItemToks.reserved _ word_a⟩
  · exact unexpected_via (Took.refl hg) (⟨_, _, .number _ int_one⟩)

theorem declLoop_via {H : Halt → Prop} (n : Nat) :
    ∀ {l : Lexer} {a : DeclAcc}, Good l → l.scanner.inp.length < n →
    Sat H (fun _ _ => True) (FailV sm (Begins DeclItems) l) (declLoop n a l) := by
  induction n with
  | zero => intro _ _ _ h; omega
  | succ n ih =>
    intro l a hg hn
    unfold declLoop
    refine sat_next hg ?_
    rw [sat_tok]
    refine sat_ite (fun h => trivial) (fun h0 => ?_)
    refine sat_ite (fun h => ?_) (fun h => ?_)
    · refine sat_unNext ?_
      have ht := took_putBack hg {}
      generalize putBack {} l = l1 at ht
      refine sat_nextWith ht.good ?_
      refine Sat.bind' ((parseDeclItem_sat (sm := sm) ht.good).and' (parseDeclItem_via (sm := sm) ht.good))
        (fun _ _ he => ErrsAt.trans ht he ?_) ?_
      · rintro ws _ ⟨i, more, h⟩
        exact ⟨_, more, by simpa using DeclItems.plain _ _ _ _ h .nil⟩
      rintro r l2 ⟨i, us, rfl, h1, h2⟩
      have ht := ht.trans h2
      have hl := ht.length
      have := declItem_pos h1
      simp at hl
      refine Sat.tailVia ht (ih ht.good (by omega)) ?_
      rintro ws _ ⟨s, more, hs⟩
      exact ⟨_, more, by simpa using DeclItems.plain _ _ _ _ h1 hs⟩
    · have hk : (nextSt {} l).token = .comma := by simpa using h
      have g := got_next (m := {}) rfl hk (by simp) (by simp)
      have ht := next_took hg (m := {}) rfl (by rw [hk]; simp)
      generalize nextSt {} l = l1 at ht g
      generalize nextTok {} l = x1 at ht g
      refine sat_nextWith ht.good ?_
      refine Sat.bind' ((parseDeclItem_sat (sm := sm) ht.good).and' (parseDeclItem_via (sm := sm) ht.good))
        (fun _ _ he => ErrsAt.trans ht he ?_) ?_
      · rintro ws _ ⟨i, more, h⟩
        exact ⟨_, more, by simpa [g.punct rfl] using DeclItems.comma _ _ _ _ h .nil⟩
      rintro r l2 ⟨i, us, rfl, h1, h2⟩
      have ht := ht.trans h2
      have hl := ht.length
      simp at hl
      refine Sat.tailVia ht (ih ht.good (by omega)) ?_
      rintro ws _ ⟨s, more, hs⟩
      exact ⟨_, more, by simpa [g.punct rfl] using DeclItems.comma _ _ _ _ h1 hs⟩

theorem opens_declaration {is : List DeclItem} {ws : List Str} (h1 : DeclItems is ws) {vs more : List Str}
    (h : [c!"declaration", c!"=", c!"{"] ++ ws ++ [c!"}"] = vs ++ more) : Opens DeclarationToks vs := by
  obtain ⟨ts, info, h4⟩ := written_some (ws := [c!"declaration", c!"=", c!"{"] ++ ws ++ [c!"}"]) (by simp)
  exact ⟨⟨_, _, _, _, _, [], none, none, info⟩, ts, more, ⟨is, ws, h1, rfl, rfl, rfl, rfl, rfl, h4⟩, h4.1.trans h⟩

theorem parseDeclaration_via {H : Halt → Prop} {l : Lexer} (hg : Good l) :
    Sat H (fun _ _ => True) (FailV sm (Opens DeclarationToks) l) (parseDeclaration l) := by
  unfold parseDeclaration
  refine expect_via (.with_ .kw) rfl (by simp) (by simp) (Took.refl hg) (?_) (fun x1 l1 g1 ht => ?_)
  · exact opens_declaration .nil (by simp; rfl)
  rw [sat_position]
  refine expect_via .next rfl (by simp) (by simp) ht (?_) (fun x2 l2 g2 ht => ?_)
  · exact opens_declaration .nil (by simp [g1.kw rfl]; rfl)
  refine expect_via .next rfl (by simp) (by simp) ht (?_) (fun x3 l3 g3 ht => ?_)
  · exact opens_declaration .nil (by simp [g1.kw rfl, g2.punct rfl]; rfl)
  refine step_inline ht (fun c l4 ht _ _ => ?_)
  rw [sat_bound]
  refine Sat.via ht (declLoop_via _ ht.good (by omega)) ?_ ?_
  · rintro ws _ ⟨is, more, h⟩
    exact opens_declaration h (more := more ++ [c!"}"]) (by simp [g1.kw rfl, g2.punct rfl, g3.punct rfl])
  intro r l5 _
  rw [sat_position]
  trivial

/-- Where the lexer stands after looking for an inline comment. -/
theorem parseInlineComment_before {H : Halt → Prop} {E : Err → Lexer → Prop} (l : Lexer) (hg : Good l) :
    Sat H (fun _ l' => ∀ B : List Str → Prop, B [] → Before B l l'.pos.p)
      E (parseInlineComment l) := by
  unfold parseInlineComment
  rw [sat_position]
  have hr := parseComment_eq hg
  show Sat H _ E (M.bind (M.attempt parseComment) _ l)
  unfold M.bind M.attempt
  rw [hr]
  by_cases h : (nextSt .commentMode l).token = .comment
  · simp only [h, if_true]
    refine sat_ite (fun h1 => ?_) (fun h1 => ?_)
    · refine sat_unNext ?_
      exact fun B hB => before_here (Took.refl hg) hB
    · exact fun B hB => before_next (Took.refl hg) _ hB
  · simp only [h, if_false]
    exact fun B hB => before_here (Took.refl hg) hB

/-- The beginnings of declarations with the right square behind them. -/
def DeclsOpen (ws : List Str) : Prop := ∃ xs ts more, DeclarationList xs ts ∧ words ts ++ [c!"]"] = ws ++ more

theorem declarationsLoop_via {H : Halt → Prop} (n : Nat) :
    ∀ {l : Lexer} {acc : List Declaration}, Good l → l.scanner.inp.length < n →
    Sat H (fun _ _ => True) (FailV sm (Tardy DeclsOpen) l) (declarationsLoop n acc l) := by
  induction n with
  | zero => intro _ _ _ h; omega
  | succ n ih =>
    intro l acc hg hn
    unfold declarationsLoop
    refine step_comments (Took.refl hg) (fun cs l1 ht _ => ?_)
    refine Sat.via ht ((parseDeclaration_sat (sm := sm) ht.good).and' (parseDeclaration_via ht.good)) ?_ ?_
    · rintro ws _ ⟨x, ts, more, h1, h2⟩
      exact .inl ⟨_, _, more ++ [c!"]"], .one _ _ h1, by simp [h2]⟩
    rintro d l2 ⟨us, h1, h0, h2, hin⟩
    have ht := ht.trans h2.took
    obtain ⟨h1, _⟩ := h1
    have hlast : (words (toks us)).getLast? = some c!"}" := by
      obtain ⟨is, ws, _, _, _, _, _, _, hw⟩ := h1
      rw [hw.1, List.getLast?_append]; rfl
    refine sat_next ht.good ?_
    rw [sat_tok]
    by_cases h : (nextSt {} l2).token = .rightSquare
    · have ht := ht.trans (next_took ht.good (m := {}) rfl (by rw [h]; simp))
      refine step_inline ht (fun c1 l3 ht _ _ => ?_)
      rw [if_pos h]
      refine step_inline ht (fun c2 l4 ht _ _ => ?_)
      trivial
    by_cases h3 : (nextSt {} l2).token = .comma
    · have g := got_next (m := {}) rfl h3 (by simp) (by simp)
      have ht := ht.trans (next_took ht.good (m := {}) rfl (by rw [h3]; simp))
      refine step_inline ht (fun c1 l3 ht _ _ => ?_)
      rw [if_neg h, if_neg (by simpa using h3)]
      refine step_inline ht (fun c2 l4 ht _ _ => ?_)
      have hl := ht.length
      simp at hl
      refine Sat.tailVia ht (ih ht.good (by omega)) ?_
      rintro ws _ hw
      refine hw.map ?_
      rintro ws ⟨xs, ts, more, h4, h5⟩
      exact ⟨_, _, more, .more _ _ (nextTok {} l2) _ _ h1 (g.punct rfl) h4, by simp [h5]⟩
    · refine Sat.bind (parseInlineComment_before (nextSt {} l2) (good_next ht.good _)) ?_
      rintro c1 l3 hc
      rw [if_neg h, if_pos h3]
      refine .single _ _ _ ?_
      by_cases he : (nextSt {} l2).token = .eof
      · have he := eof_took ht.good (m := {}) rfl he
        refine (hc (· = []) rfl).trans (ht.trans he.1) ?_
        rintro _ _ rfl
        exact .inl ⟨_, _, [c!"]"], .one _ _ h1, by simp⟩
      · refine (hc (· = []) (rfl)).trans (ht.trans (next_took ht.good (m := {}) rfl he)) ?_
        rintro _ _ rfl
        exact .inr ⟨words (toks us), (nextTok {} l2).text, by simp, hlast, _, _, [], .one _ _ h1, by simp⟩

theorem parseDeclarations_via {H : Halt → Prop} {l : Lexer} (hg : Good l) :
    Sat H (fun _ _ => True)
      (FailV sm (Tardy (fun ws => ∃ xs ts more, Declarations xs ts ∧ words ts = ws ++ more)) l) (parseDeclarations l) := by
  unfold parseDeclarations
  refine sat_next hg ?_
  rw [sat_tok]
  refine sat_ite (fun h => ?_) (fun h => ?_)
  · refine sat_unNext ?_
    trivial
  have hk : (nextSt {} l).token = .leftSquare := by simpa using h
  have g := got_next (m := {}) rfl hk (by simp) (by simp)
  have ht := next_took hg (m := {}) rfl (by rw [hk]; simp)
  generalize nextSt {} l = l1 at ht g
  generalize nextTok {} l = x1 at ht g
  refine step_inline ht (fun c1 l2 ht _ _ => ?_)
  rw [sat_bound]
  refine Sat.via ht (declarationsLoop_via _ ht.good (by omega)) ?_ (fun _ _ _ => trivial)
  intro ws _ h
  refine h.map ?_
  rintro ws ⟨xs, ts, more, h1, h2⟩
  exact ⟨xs, _, more, .some xs x1 ts ⟨c!"]", {}⟩ (g.punct rfl) h1 rfl, by simpa using h2⟩

theorem opens_extensions {rs : List Range} {ds : List Declaration} {ws : List Str} {dt : List Tok}
    (h1 : RangesToks rs ws) (h2 : Declarations ds dt) {vs more : List Str}
    (h : c!"extensions" :: ws ++ words dt ++ [c!";"] = vs ++ more) : Opens ExtensionsToks vs := by
  obtain ⟨rt, h3⟩ := toks_some ws
  obtain ⟨info, h7⟩ := spans_some (ts := ⟨c!"extensions", {}⟩ :: rt ++ dt ++ [⟨c!";", {}⟩]) (by simp)
  subst h3
  exact ⟨⟨rs, ds, [], none, none, info⟩, _, more, ⟨_, rt, dt, _, rfl, h1, h2, rfl, rfl, h7⟩, by simpa using h⟩

theorem ranges_one : RangesToks [⟨c!"1", []⟩] [c!"1"] := .one _ _ (.one _ int_one)

theorem parseExtensions_via {H : Halt → Prop} {l : Lexer} (hg : Good l) :
    Sat H (fun _ _ => True) (FailV sm (Tardy (Opens ExtensionsToks)) l) (parseExtensions l) := by
  unfold parseExtensions
  refine expect_via (.with_ .kw) rfl (by simp) (by simp) (Took.refl hg) (?_) (fun x1 l1 g1 ht => ?_)
  · exact .inl (opens_extensions ranges_one .none (by simp; rfl))
  rw [sat_position]
  refine Sat.via ht ((parseRanges_sat (sm := sm) ht.good).and' (parseRanges_via ht.good)) ?_ ?_
  · rintro ws _ ⟨s, more, h⟩
    exact .inl (opens_extensions h .none (more := more ++ [c!";"]) (by simp [g1.kw rfl]))
  rintro rs l2 ⟨us, h1, h2⟩
  have ht := ht.trans h2
  refine Sat.via ht ((parseDeclarations_sat (sm := sm) ht.good).and' (parseDeclarations_via ht.good)) ?_ ?_
  · rintro ws _ hw
    refine hw.map ?_
    rintro ws ⟨xs, ts, more, h3, h4⟩
    exact opens_extensions h1 h3 (more := more ++ [c!";"]) (by simp [g1.kw rfl, h4])
  rintro ⟨ds, c⟩ l3 ⟨vs, h3, h4, h5⟩
  have ht := ht.trans h4
  refine expect_via .next rfl (by simp) (by simp) ht (?_) (fun x4 l4 g4 ht4 => ?_)
  · exact .inl (opens_extensions h1 h3 (more := [c!";"]) (by simp [g1.kw rfl]))
  rw [sat_position]
  trivial

end Parser
end Verif
