import Verif.Proofs.ParseOption
import Verif.Proofs.Ends

/-!
# Fields: field.go, mapField.go, oneof.go
-/

set_option backward.isDefEq.respectTransparency false
set_option backward.dsimp.instances true

namespace Verif
open Spec Scanner Lexer
open M (bind_ok run_get)

variable {sm : Bool}

/-- A node that starts with the next token and ends with the last token read. -/
theorem spans_took {l l' : Lexer} {us : List Tok} {b : Tok} {info : Meta} (h : Took l (us ++ [b]) l')
    {m : Mode} (hm : m.comment = false) (h1 : (nextSt m l).pos.p = info.pos)
    (h2 : b.pos = info.lastPos) : Spans (us ++ [b]) info := by
  refine ⟨?_, us, b, rfl, h2⟩
  cases us with
  | nil => exact ⟨b, [], rfl, (took_head (ts := []) (by simpa using h) hm).trans h1⟩
  | cons a us =>
    exact ⟨a, us ++ [b], rfl, (took_head (ts := us ++ [b]) (by simpa using h) hm).trans h1⟩

theorem messageType_head {s : Str} {ws : List Str} (h : MessageType s ws) :
    ∃ w us, ws = w :: us ∧ (w = c!"." ∨ Word w) := by
  cases h with
  | plain _ _ h =>
    obtain ⟨w, _, us, hw, _, _, rfl⟩ := dotTail_of_fullIdent h
    exact ⟨w, us, rfl, .inr hw⟩
  | dot _ _ h => exact ⟨_, _, rfl, .inl rfl⟩

theorem scalars_word : ∀ w ∈ scalars, Word w := by
  have key : ∀ w ∈ scalars, (w.head?.any (fun c => decide (c ∈ letters)) = true) ∧
      ∀ d ∈ w, d ∈ letters ∨ d ∈ decimals ∨ d = '_' := by decide
  intro w hw
  obtain ⟨h1, h2⟩ := key w hw
  cases w with
  | nil => simp at h1
  | cons c v => exact .mk c v (.inl (by simpa using h1)) (fun d hd => h2 d (by simp [hd]))

theorem typeName_ne {s : Str} {ws : List Str} (h : TypeName s ws) :
    ∃ w us, ws = w :: us ∧ (w = c!"." ∨ Word w) := by
  cases h with
  | scalar h => exact ⟨_, _, rfl, .inr (scalars_word _ h)⟩
  | named _ h => exact messageType_head (by assumption)

/-- The first word of what was consumed, in any mode. -/
theorem took_first {l l' : Lexer} {ts : List Tok} {w : Str} {us : List Str} (h : Took l ts l')
    (hw : words ts = w :: us) (hx : Word w) {m : Mode} (hm : m.comment = false) :
    (nextSt m l).token = wordToken m w ∧ (nextSt m l).text = w := by
  cases ts with
  | nil => simp at hw
  | cons t ts =>
    simp only [words_cons, List.cons.injEq] at hw
    obtain ⟨rfl, _⟩ := hw
    exact took_word h hx hm

namespace Parser

/-- A type, or the beginning of one at the end of the input. -/
theorem parseType_cut {H : Halt → Prop} {l : Lexer} (hg : Good l) :
    Sat H (fun r l' => ∃ ts, Partly TypeName r.1 l' (words ts) ∧ Took l ts l' ∧
        (ts ≠ [] → r.2 = (nextSt {} l).pos))
      (FailC sm (Begins TypeName) l) (parseType l) := by
  unfold parseType
  refine sat_next hg ?_
  rw [sat_txt]
  refine sat_ite (fun h => ?_) (fun h => ?_)
  · have hne : (nextSt {} l).text ≠ [] := by
      intro h'; rw [h'] at h; revert h; decide
    have h5 := next_text (l := l) (m := {}) rfl hne
    have hnf : (nextSt {} l).token ≠ .eof := fun h => hne (eof_took hg (m := {}) rfl h).2.2
    refine ⟨[nextTok {} l], .inl ?_, next_took hg rfl hnf, fun _ => rfl⟩
    simp only [words_cons, words_nil, h5]
    exact .scalar _ h
  · refine sat_unNext ?_
    have hb := took_putBack hg {}
    have key : ∀ {ts l' s more}, Took l ts l' → MessageType s (words ts ++ more) → words ts ≠ [] →
        TypeName s (words ts ++ more) := by
      intro ts l' s more h2 h1 h3
      refine .named _ _ h1 ?_
      obtain ⟨w, us, hw, hx⟩ := messageType_head h1
      rw [hw]
      simp only [List.head?_cons, Option.mem_def, Option.some.injEq]
      rintro _ rfl hs
      rcases hx with rfl | hx
      · revert hs; decide
      · apply h
        cases hts : words ts with
        | nil => exact absurd hts h3
        | cons v vs =>
          rw [hts] at hw
          simp only [List.cons_append, List.cons.injEq] at hw
          rw [hw.1] at hts
          rw [(took_first h2 hts hx (m := {}) rfl).2]
          exact hs
    have begin_ : ∀ {ts l'}, Took l ts l' → Begins MessageType (words ts) → Begins TypeName (words ts) := by
      rintro ts l' h2 ⟨s, more, hs⟩
      by_cases hn : words ts = []
      · rw [hn]
        exact ⟨_, [c!"a"], .named _ _ (.plain _ _ (.one _ word_a)) (by simp; decide)⟩
      · exact ⟨s, more, key h2 hs hn⟩
    refine (Sat.tailCut hb (readMessageType_cut hb.good).taken ?_).mono ?_ (fun _ _ h => h)
    · rintro ws _ ⟨hs, ts, l2, rfl, h2⟩
      exact begin_ (hb.trans h2) hs
    rintro r l' ⟨ts, h1, h2, h3⟩
    have h2' : Took l ts l' := by simpa using hb.trans h2
    refine ⟨ts, ?_, h2', fun h => (h3 h).trans ((back_putBack hg {}).tpos {})⟩
    refine h1.imp (fun h1 => ?_) (fun h1 => ⟨h1.1, begin_ h2' h1.2⟩)
    have := key (more := []) h2' (by simpa using h1) (by
      obtain ⟨w, us, hw, _⟩ := messageType_head h1
      rw [hw]; simp)
    simpa using this

theorem parseType_sat {H : Halt → Prop} {l : Lexer} (hg : Good l) :
    Sat H (fun r l' => ∃ ts, Partly TypeName r.1 l' (words ts) ∧ Took l ts l' ∧
        (ts ≠ [] → r.2 = (nextSt {} l).pos))
      (FailR sm l) (parseType l) := (parseType_cut hg).toR

theorem parseFieldNumber_cut {H : Halt → Prop} {l : Lexer} (hg : Good l) :
    Sat H (fun r l' => ∃ ts, words ts = [r] ∧ IntLit r ∧ Took l ts l')
      (FailC sm (· = []) l) (parseFieldNumber l) := by
  unfold parseFieldNumber
  refine expect_cut (.with_ _) rfl (by simp) (by simp) (Took.refl hg) (rfl) (fun x1 l1 g1 ht => ?_)
  exact ⟨[x1], by simp [g1.text], by rw [← g1.text]; exact g1.reads, ht⟩

theorem parseFieldNumber_sat {H : Halt → Prop} {l : Lexer} (hg : Good l) :
    Sat H (fun r l' => ∃ ts, words ts = [r] ∧ IntLit r ∧ Took l ts l')
      (FailR sm l) (parseFieldNumber l) := (parseFieldNumber_cut hg).toR

theorem parseFieldOption_cut {H : Halt → Prop} {cfg : Cfg} {l : Lexer} (hg : Good l) :
    Sat H (fun r l' => ∃ ts, Partly (FieldOptionToks cfg.gram) r l' (words ts) ∧ Took l ts l')
      (FailC (!cfg.permissive) (Begins (FieldOptionToks cfg.gram)) l) (parseFieldOption cfg l) := by
  have h0 : Constant cfg.gram c!"1" [c!"1"] := .number _ (.inl int_one)
  unfold parseFieldOption
  refine Sat.cut (Took.refl hg) (parseOptionName_cut hg) ?_ ?_
  · rintro ws _ ⟨s, more, hs⟩
    exact ⟨⟨_, _⟩, more ++ [c!"=", c!"1"], _, _, hs, h0, by simp⟩
  rintro s l2 ⟨us, h1, ht⟩
  refine expect_cut .next rfl (by simp) (by simp) ht (?_) (fun x3 l3 g3 ht => ?_)
  · exact ⟨⟨_, _⟩, [c!"=", c!"1"], _, _, h1, h0, by simp⟩
  refine Sat.cut ht (parseOptionConstant_cut ht.good) ?_ ?_
  · rintro ws _ ⟨s', more, hs⟩
    exact ⟨⟨_, _⟩, more, _, _, h1, hs, by simp [g3.punct rfl]⟩
  rintro c l4 ⟨vs, h3, h4⟩
  refine ⟨us ++ [x3] ++ vs, ?_, ht.trans h4⟩
  rcases h3 with h3 | ⟨hn, s', more, h3⟩
  · exact .inl ⟨_, _, h1, h3, by simp [g3.punct rfl]⟩
  · exact .inr ⟨hn, ⟨_, _⟩, more, _, _, h1, h3, by simp [g3.punct rfl]⟩

/-- `{ "," fieldOption }` -/
inductive FieldOptionTail (G : Gram) : List FieldOption → List Str → Prop
  | nil : FieldOptionTail G [] []
  | cons (x : FieldOption) (ws : List Str) (xs : List FieldOption) (ws' : List Str) :
      FieldOptionToks G x ws → FieldOptionTail G xs ws' →
      FieldOptionTail G (x :: xs) (c!"," :: ws ++ ws')

theorem fieldOptionList_of_tail {G : Gram} {s s' : List FieldOption} {ws ws' : List Str}
    (h : FieldOptionList G s ws) (h' : FieldOptionTail G s' ws') :
    FieldOptionList G (s ++ s') (ws ++ ws') := by
  induction h' generalizing s ws with
  | nil => simpa using h
  | cons a as b bs ha _ ih => simpa using ih (.more s ws a as h ha)

/-- An option, the beginning of one at the end of the input, and what follows it. -/
theorem fieldOptionList_partly {G : Gram} {r : FieldOption} {ws : List Str} {l2 : Lexer}
    (h1 : Partly (FieldOptionToks G) r l2 ws) :
    (∀ {vs : List Str}, (l2.scanner.inp = [] → vs = []) → Begins (FieldOptionTail G) vs →
      Begins (FieldOptionList G) (ws ++ vs)) ∧
    ∀ {s : List FieldOption} {l' : Lexer} {vs : List Tok}, Partly (FieldOptionTail G) s l' (words vs) → Took l2 vs l' →
      Partly (FieldOptionList G) ([r] ++ s) l' (ws ++ words vs) := by
  refine ⟨?_, ?_⟩
  · rintro vs hend ⟨s, more, hs⟩
    rcases h1 with h1 | ⟨hn, s1, m1, h1⟩
    · exact ⟨_, more, by rw [List.append_assoc]; exact fieldOptionList_of_tail (.one _ _ h1) hs⟩
    · rw [hend hn]
      exact ⟨_, m1, by simpa using FieldOptionList.one _ _ h1⟩
  · intro s l' vs h3 h4
    rcases h1 with h1 | ⟨hn, s1, m1, h1⟩
    · rcases h3 with h3 | ⟨hn3, s3, m3, h3⟩
      · exact .inl (fieldOptionList_of_tail (.one _ _ h1) h3)
      · exact .inr ⟨hn3, _, m3, by rw [List.append_assoc]; exact fieldOptionList_of_tail (.one _ _ h1) h3⟩
    · obtain ⟨hn4, rfl⟩ := h4.ended hn
      exact .inr ⟨hn4, _, m1, by simpa using FieldOptionList.one _ _ h1⟩

theorem fieldOptionsLoop_cut {H : Halt → Prop} {cfg : Cfg} {e : String} (n : Nat) :
    ∀ {l : Lexer} {acc : List FieldOption}, Good l → l.scanner.inp.length < n →
    Sat H (fun r l' => ∃ s us, r = acc ++ s ∧ Partly (FieldOptionTail cfg.gram) s l' (words us) ∧ Took l us l')
      (FailC (!cfg.permissive) (Begins (FieldOptionTail cfg.gram)) l) (fieldOptionsLoop cfg e n acc l) := by
  induction n with
  | zero => intro _ _ _ h; omega
  | succ n ih =>
    intro l acc hg hn
    unfold fieldOptionsLoop
    refine sat_next hg ?_
    rw [sat_tok]
    refine sat_ite (fun h => ?_) (fun h => ?_)
    · refine sat_unNext ?_
      exact ⟨[], [], by simp, .inl .nil, took_putBack hg _⟩
    have hk : (nextSt {} l).token = .comma := by simpa using h
    have g := got_next (m := {}) rfl hk (by simp) (by simp)
    have ht := next_took hg (m := {}) rfl (by rw [hk]; simp)
    generalize nextSt {} l = l1 at ht g
    generalize nextTok {} l = x1 at ht g
    refine Sat.cut ht (orUnexpected_cut (parseFieldOption_cut ht.good)) ?_ ?_
    · rintro ws _ ⟨s, more, hs⟩
      exact ⟨_, more, by simpa [g.punct rfl] using FieldOptionTail.cons _ _ _ _ hs .nil⟩
    rintro r l2 ⟨us, h1, h2⟩
    have ht := ht.trans h2
    have hl := ht.length
    simp at hl
    refine (Sat.tailCut ht (ih ht.good (by omega)) ?_).mono ?_ (fun _ _ h => h)
    · rintro ws hend ⟨s, more, hs⟩
      rcases h1 with h1 | ⟨hn, s1, m1, h1⟩
      · exact ⟨_, more, by simpa [g.punct rfl] using FieldOptionTail.cons _ _ _ _ h1 hs⟩
      · rw [hend hn]
        exact ⟨_, m1, by simpa [g.punct rfl] using FieldOptionTail.cons _ _ _ _ h1 .nil⟩
    rintro r' l' ⟨s, vs, rfl, h3, h4⟩
    refine ⟨r :: s, x1 :: us ++ vs, by simp, ?_, by simpa using ht.trans h4⟩
    rcases h1 with h1 | ⟨hn, s1, m1, h1⟩
    · rcases h3 with h3 | ⟨hn3, s3, m3, h3⟩
      · exact .inl (by simpa [g.punct rfl] using FieldOptionTail.cons _ _ _ _ h1 h3)
      · exact .inr ⟨hn3, _, m3, by simpa [g.punct rfl] using FieldOptionTail.cons _ _ _ _ h1 h3⟩
    · obtain ⟨hn4, rfl⟩ := h4.ended hn
      exact .inr ⟨hn4, _, m1, by simpa [g.punct rfl] using FieldOptionTail.cons _ _ _ _ h1 .nil⟩

theorem parseFieldOptions_cut {H : Halt → Prop} {cfg : Cfg} {l : Lexer} (hg : Good l) :
    Sat H (fun r l' => ∃ ts, Partly (FieldOptionList cfg.gram) r l' (words ts) ∧ Took l ts l')
      (FailC (!cfg.permissive) (Begins (FieldOptionList cfg.gram)) l) (parseFieldOptions cfg l) := by
  unfold parseFieldOptions
  refine Sat.cut (Took.refl hg) (parseFieldOption_cut hg) ?_ ?_
  · rintro ws _ ⟨s, more, hs⟩
    exact ⟨_, more, .one _ _ hs⟩
  rintro r l2 ⟨us, h1, h2⟩
  rw [sat_bound]
  refine (Sat.tailCut h2 (fieldOptionsLoop_cut _ h2.good (by omega)) ?_).mono ?_ (fun _ _ h => h)
  · rintro ws hend ⟨s, more, hs⟩
    exact (fieldOptionList_partly h1).1 hend ⟨s, more, hs⟩
  rintro r' l' ⟨s, vs, rfl, h3, h4⟩
  refine ⟨us ++ vs, ?_, h2.trans h4⟩
  rw [words_append]
  exact (fieldOptionList_partly h1).2 h3 h4

theorem parseFieldOptionsOption_cut {H : Halt → Prop} {cfg : Cfg} {l : Lexer} (hg : Good l) :
    Sat H (fun r l' => ∃ ts, FieldOptions cfg.gram r (words ts) ∧ Took l ts l')
      (FailC (!cfg.permissive) (Begins (FieldOptions cfg.gram)) l) (parseFieldOptionsOption cfg l) := by
  unfold parseFieldOptionsOption
  refine sat_next hg ?_
  rw [sat_tok]
  refine sat_ite (fun h => ?_) (fun h => ?_)
  · have g := got_next (m := {}) rfl h (by simp) (by simp)
    have ht := next_took hg (m := {}) rfl (by rw [h]; simp)
    generalize nextSt {} l = l1 at ht g
    generalize nextTok {} l = x1 at ht g
    refine Sat.cut ht (parseFieldOptions_cut ht.good) ?_ ?_
    · rintro ws _ ⟨s, more, hs⟩
      exact ⟨_, more ++ [c!"]"], by simpa [g.punct rfl] using FieldOptions.some _ _ hs⟩
    rintro r l2 ⟨us, h1, h2⟩
    have ht := ht.trans h2
    refine expect_cut .next rfl (by simp) (by simp) ht ?_ (fun x3 l3 g3 ht => ?_)
    · obtain ⟨_, more, h1⟩ := h1.begins
      exact ⟨_, more ++ [c!"]"], by simpa [g.punct rfl] using FieldOptions.some _ _ h1⟩
    have h1 := h1.whole (fun h => got_not_nil g3 h (by simp))
    refine ⟨_, ?_, ht⟩
    simpa [g.punct rfl, g3.punct rfl] using FieldOptions.some _ _ h1
  · refine sat_unNext ?_
    exact ⟨[], .none, took_putBack hg _⟩

theorem parseFieldOptionsOption_sat {H : Halt → Prop} {cfg : Cfg} {l : Lexer} (hg : Good l) :
    Sat H (fun r l' => ∃ ts, FieldOptions cfg.gram r (words ts) ∧ Took l ts l')
      (FailR (!cfg.permissive) l) (parseFieldOptionsOption cfg l) := (parseFieldOptionsOption_cut hg).toR

/-- The words of a label. -/
theorem parseLabel_sat {H : Halt → Prop} {E : Err → Lexer → Prop} {l : Lexer} (hg : Good l) :
    Sat H (fun r l' => ∃ ts, Labelled r.isRepeated r.isRequired r.isOptional (words ts) ∧ Took l ts l' ∧
        (ts = [] → (nextSt .kw l).token ≠ .kRepeated ∧ (nextSt .kw l).token ≠ .kRequired ∧
          (nextSt .kw l).token ≠ .kOptional ∧ l' = putBack .kw l))
      E (parseLabel (nextSt .kw l)) := by
  unfold parseLabel
  rw [sat_tok]
  refine sat_ite (fun h => ?_) (fun h => ?_)
  · refine ⟨_, ?_, next_took hg rfl (by rw [h]; simp), by simp⟩
    simp only [words_cons, words_nil, (got_next (m := .kw) rfl h (by simp) (by simp)).kw rfl]
    exact .repeated
  refine sat_ite (fun h1 => ?_) (fun h1 => ?_)
  · refine ⟨_, ?_, next_took hg rfl (by rw [h1]; simp), by simp⟩
    simp only [words_cons, words_nil, (got_next (m := .kw) rfl h1 (by simp) (by simp)).kw rfl]
    exact .required
  refine sat_ite (fun h2 => ?_) (fun h2 => ?_)
  · refine ⟨_, ?_, next_took hg rfl (by rw [h2]; simp), by simp⟩
    simp only [words_cons, words_nil, (got_next (m := .kw) rfl h2 (by simp) (by simp)).kw rfl]
    exact .optional
  · refine sat_unNext ?_
    exact ⟨[], .none, took_putBack hg _, fun _ => ⟨h, h1, h2, rfl⟩⟩

/-- The word lists that begin a field, but are none. -/
def BegunField (G : Gram) (ws : List Str) : Prop :=
  ∃ ts more, words ts = ws ++ more ∧ more ≠ [] ∧ ∃ x, FieldToks G x ts

theorem begunField {G : Gram} {r q o : Bool} {ls ws os : List Str} {ty nm num : Str} {opts : List FieldOption}
    (h1 : Labelled r q o ls) (h2 : TypeName ty ws) (h3 : ls = [] → ∀ w ∈ ws.head?, w ∉ labelWords) (h4 : Word nm)
    (h5 : IntLit num) (h6 : FieldOptions G opts os) {vs more : List Str} (hm : more ≠ [])
    (h : ls ++ ws ++ [nm, c!"=", num] ++ os ++ [c!";"] = vs ++ more) : BegunField G vs := by
  obtain ⟨ts, info, h7⟩ := written_some (ws := ls ++ ws ++ [nm, c!"=", num] ++ os ++ [c!";"]) (by simp)
  exact ⟨ts, more, h7.1.trans h, hm, ⟨r, q, o, ty, nm, num, opts, [], none, info⟩, h4, h5, ls, ws, os, h1, h2, h3, h6, h7⟩

theorem parseField_cut {H : Halt → Prop} {cfg : Cfg} {l : Lexer} (hg : Good l) :
    Sat H (fun r l' => ∃ ts, FieldToks cfg.gram r ts ∧ Took l ts l')
      (FailC (!cfg.permissive) (BegunField cfg.gram) l) (parseField cfg l) := by
  unfold parseField
  refine sat_nextWith hg ?_
  rw [sat_position]
  refine Sat.bind (parseLabel_sat hg) ?_
  rintro lb l1 ⟨ls, h1, ht, h2⟩
  have hhead : ∀ {us l2 s more}, Took l1 us l2 → TypeName s (words us ++ more) → words us ≠ [] → words ls = [] →
      ∀ w ∈ (words us ++ more).head?, w ∉ labelWords := by
    intro us l2 s more h4 h3 hne hls w hw
    have hls : ls = [] := by simpa [words] using hls
    obtain ⟨k1, k2, k3, rfl⟩ := h2 hls
    obtain ⟨w', ws', e, hx⟩ := typeName_ne h3
    rw [e] at hw
    simp only [List.head?_cons, Option.mem_def, Option.some.injEq] at hw
    subst hw
    intro hm
    rcases hx with rfl | hx
    · revert hm; decide
    · cases hus : words us with
      | nil => exact hne hus
      | cons v vs =>
        rw [hus] at e
        simp only [List.cons_append, List.cons.injEq] at e
        rw [e.1] at hus
        have := (took_first h4 hus hx (m := .kw) rfl).1
        rw [(back_putBack hg .kw).token] at this
        simp only [labelWords, List.mem_cons, List.not_mem_nil, or_false] at hm
        rcases hm with rfl | rfl | rfl
        · exact k1 this
        · exact k2 this
        · exact k3 this
  have begin_ : ∀ {us l2}, Took l1 us l2 → Begins TypeName (words us) → BegunField cfg.gram (words ls ++ words us) := by
    rintro us l2 h4 ⟨s, more, hs⟩
    by_cases hn : words us = []
    · exact begunField h1 (.named _ _ (.plain _ _ (.one _ word_a)) (by simp; decide)) (by simp [labelWords]) word_a int_one .none
        (more := [c!"a", c!"a", c!"=", c!"1", c!";"]) (by simp) (by simp [hn])
    · exact begunField h1 hs (hhead h4 hs hn) word_a int_one .none
        (more := more ++ [c!"a", c!"=", c!"1", c!";"]) (by simp) (by simp)
  refine Sat.cut ht (orUnexpected_cut (parseType_cut ht.good)).taken ?_ ?_
  · rintro ws _ ⟨hs, us, l2, rfl, h4⟩
    exact begin_ h4 hs
  rintro ⟨ty, q⟩ l2 ⟨us, h3, h4, _⟩
  have ht := ht.trans h4
  have hd : TypeName ty (words us) → words ls = [] → ∀ w ∈ (words us).head?, w ∉ labelWords := by
    intro h3
    have := hhead (more := []) h4 (by simpa using h3) (by
      obtain ⟨w, us, hw, _⟩ := typeName_ne h3
      rw [hw]; simp)
    simpa using this
  refine expect_cut .next rfl (by simp) (by simp) ht (by simpa using begin_ h4 h3.begins)
    (fun x3 l3 g3 ht => ?_)
  have h3 : TypeName ty (words us) := h3.whole (fun h => got_not_nil g3 h (by simp))
  have hd := hd h3
  have hw : Word x3.text := g3.reads.1
  rw [sat_txt]
  refine expect_cut .next rfl (by simp) (by simp) ht (?_) (fun x4 l4 g4 ht => ?_)
  · exact begunField h1 h3 hd hw int_one .none (more := [c!"=", c!"1", c!";"]) (by simp) (by simp)
  refine Sat.cut ht (orUnexpected_cut (parseFieldNumber_cut ht.good)) ?_ ?_
  · rintro _ _ rfl
    exact begunField h1 h3 hd hw int_one .none (more := [c!"1", c!";"]) (by simp) (by simp [g4.punct rfl])
  rintro num l5 ⟨ns, h5, h6, h7⟩
  have ht := ht.trans h7
  refine Sat.cut ht (parseFieldOptionsOption_cut ht.good) ?_ ?_
  · rintro ws _ ⟨s, more, hs⟩
    exact begunField h1 h3 hd hw h6 hs (more := more ++ [c!";"]) (by simp) (by simp [g4.punct rfl, h5])
  rintro opts l6 ⟨os, h8, h9⟩
  have ht := ht.trans h9
  refine expect_cut .next rfl (by simp) (by simp) ht (?_) (fun x7 l7 g7 ht => ?_)
  · exact begunField h1 h3 hd hw h6 h8 (more := [c!";"]) (by simp) (by simp [g4.punct rfl, h5])
  rw [sat_position]
  refine ⟨_, ⟨by rw [← g3.text]; exact g3.reads.1, h6, words ls, words us, words os, h1, h3, hd, h8, ?_,
    spans_took ht (m := .kw) rfl rfl (by simp [g7.pos])⟩, ht⟩
  simp [g3.text, g4.punct rfl, h5, g7.punct rfl]

theorem parseField_sat {H : Halt → Prop} {cfg : Cfg} {l : Lexer} (hg : Good l) :
    Sat H (fun r l' => ∃ ts, FieldToks cfg.gram r ts ∧ Took l ts l')
      (FailR (!cfg.permissive) l) (parseField cfg l) := (parseField_cut hg).toR

theorem parseKeyType_sat {H : Halt → Prop} {l : Lexer} (hg : Good l) :
    Sat H (fun r l' => ∃ ts, words ts = [r] ∧ r ∈ keyTypes ∧ Took l ts l')
      (FailR sm l) (parseKeyType l) := by
  unfold parseKeyType
  refine sat_next hg ?_
  rw [sat_txt]
  refine sat_ite (fun h => ?_) (fun h => sat_unexpected rfl (Took.refl hg))
  have hne : (nextSt {} l).text ≠ [] := by
    intro h'; rw [h'] at h; revert h; decide
  have h5 := next_text (l := l) (m := {}) rfl hne
  have hnf : (nextSt {} l).token ≠ .eof := fun h => hne (eof_took hg (m := {}) rfl h).2.2
  exact ⟨[nextTok {} l], by simp [h5], h, next_took hg rfl hnf⟩

theorem parseMapField_sat {H : Halt → Prop} {cfg : Cfg} {l : Lexer} (hg : Good l) :
    Sat H (fun r l' => ∃ ts, MapFieldToks cfg.gram r ts ∧ Took l ts l')
      (FailR (!cfg.permissive) l) (parseMapField cfg l) := by
  unfold parseMapField
  refine step_expect (.with_ .kw) rfl (by simp) (by simp) (Took.refl hg) (fun x1 l1 g1 ht => ?_)
  rw [sat_position]
  refine step_expect .next rfl (by simp) (by simp) ht (fun x2 l2 g2 ht => ?_)
  refine Sat.stepR ht (parseKeyType_sat ht.good) ?_
  rintro key l3 ⟨ks, h1, h2, h3⟩
  have ht := ht.trans h3
  refine step_expect .next rfl (by simp) (by simp) ht (fun x4 l4 g4 ht => ?_)
  refine Sat.stepR ht (orUnexpected_sat (parseType_sat ht.good)) ?_
  rintro ⟨ty, q⟩ l5 ⟨us, h4, h5, _⟩
  have ht := ht.trans h5
  refine step_expect .next rfl (by simp) (by simp) ht (fun x6 l6 g6 ht => ?_)
  have h4 : TypeName ty (words us) := h4.whole (fun h => got_not_nil g6 h (by simp))
  refine step_expect .next rfl (by simp) (by simp) ht (fun x7 l7 g7 ht => ?_)
  rw [sat_txt]
  refine step_expect .next rfl (by simp) (by simp) ht (fun x8 l8 g8 ht => ?_)
  refine Sat.stepR ht (orUnexpected_sat (parseFieldNumber_sat ht.good)) ?_
  rintro num l9 ⟨ns, h6, h7, h8⟩
  have ht := ht.trans h8
  refine Sat.stepR ht (parseFieldOptionsOption_sat ht.good) ?_
  rintro opts l10 ⟨os, h9, h10⟩
  have ht := ht.trans h10
  refine step_expect .next rfl (by simp) (by simp) ht (fun x11 l11 g11 ht => ?_)
  rw [sat_position]
  refine ⟨_, ⟨h2, by rw [← g7.text]; exact g7.reads.1, h7, words us, words os, h4, h9, ?_,
    spans_took ht (m := .kw) rfl (by simp [g1.eq]) (by simp [g11.pos])⟩, ht⟩
  simp [g1.kw rfl, g2.punct rfl, h1, g4.punct rfl, g6.punct rfl, g7.text, g8.punct rfl, h6, g11.punct rfl]

/-! ## Blocks -/

/-- The items that end a block. -/
structure ClosedI (G : Gram) (cl : List Item) (q : SPos) (l' : Lexer) : Prop where
  head : ∃ x tl, cl = .tok x :: tl ∧ x.text = c!"}" ∧ (words (toks tl) = [] ∨ words (toks tl) = [c!";"])
  close : Close G (toks cl)
  last : ∃ t, EndsIn t cl ∧ t.pos = q.p ∧ l'.pos.p.line = t.pos.line

/-- The end of a block: an optional semicolon after the brace that was read last. -/
theorem blockLastPos_sat {H : Halt → Prop} {E : Err → Lexer → Prop} {cfg : Cfg} {l : Lexer}
    (hg : Good l) {x : Tok} (hx : x.text = c!"}") (hp : x.pos = l.pos.p) (hl : l.scanner.pos.p.line = x.pos.line) :
    Sat H (fun r l' => ∃ tl, TookI l tl l' ∧ ClosedI cfg.gram (.tok x :: tl) r l')
      E (blockLastPos cfg l) := by
  unfold blockLastPos
  rw [sat_position]
  have hn : EndsIn x [.tok x] := ⟨[], rfl⟩
  refine sat_ite (fun hpm => ?_) (fun hpm => ?_)
  · show Sat H _ E (M.bind (consumeToken .semicolon) _ l)
    unfold M.bind
    rw [consumeToken_eq hg]
    by_cases h : (nextSt {} l).token = .semicolon
    · simp only [h, if_true]
      rw [sat_tok, if_pos h]
      have g := got_next (m := {}) rfl h (by simp) (by simp)
      obtain ⟨lost, h1, _⟩ := next_items hg (m := {}) rfl (by rw [h]; exact ⟨by simp, by simp, by simp⟩)
      have hw : words (toks (coms lost ++ [.tok (nextTok {} l)])) = [c!";"] := by
        simp [toks_append, g.punct rfl]
      refine ⟨_, h1, ⟨_, _, rfl, hx, .inr hw⟩, .inr ⟨hpm, ?_⟩, nextTok {} l, ⟨.tok x :: coms lost, rfl⟩, rfl, rfl⟩
      simp [hx, toks_append, g.punct rfl]
    · simp only [h, if_false]
      rw [sat_tok, if_neg (by simp [putBack])]
      exact ⟨[], (back_putBack hg _).tookI hg, ⟨x, [], rfl, hx, .inl rfl⟩, .inl (by simp [hx]), x, hn, hp, hl⟩
  · exact ⟨[], TookI.refl hg, ⟨x, [], rfl, hx, .inl rfl⟩, .inl (by simp [hx]), x, hn, hp, by rw [hp]⟩

/-- The stream of a block, and the comment behind its left curly. -/
theorem ClosedI.block {G : Gram} {l l1 l2 l' : Lexer} {hd body cl : List Item} {q : SPos} {o : Option Comment} {x : Tok}
    (hc : ClosedI G cl q l') (hu : UpTo c!"{" x hd) (ho : Inline l o l1) (hn : l.pos.p.line = x.pos.line)
    (ht : TookI l1 (body ++ cl) l2) : Block o body (hd ++ opt o ++ body ++ cl) := by
  obtain ⟨y, tl, rfl, h1, h2⟩ := hc.head
  have := ho.behind hn ht
  exact ⟨hd, x, y, tl, hu, h1, by simp, h2, Behind.prefix (js := tl) (by simpa using this)⟩

/-! ## Oneofs -/

theorem parseOneofField_sat {H : Halt → Prop} {cfg : Cfg} {l : Lexer} (hg : Good l)
    (hk : (nextSt .kw l).token ≠ .kOption) :
    Sat H (fun r l' => ∃ ts, OneofFieldToks cfg.gram r ts ∧ Took l ts l')
      (FailR (!cfg.permissive) l) (parseOneofField cfg l) := by
  unfold parseOneofField
  refine Sat.stepR (Took.refl hg) (orUnexpected_sat (parseType_sat hg)) ?_
  rintro ⟨ty, q⟩ l2 ⟨us, h3, h4, hq⟩
  have ht := h4
  refine step_expect .next rfl (by simp) (by simp) ht (fun x3 l3 g3 ht => ?_)
  have h3 : TypeName ty (words us) := h3.whole (fun h => got_not_nil g3 h (by simp))
  rw [sat_txt]
  refine step_expect .next rfl (by simp) (by simp) ht (fun x4 l4 g4 ht => ?_)
  refine Sat.stepR ht (orUnexpected_sat (parseFieldNumber_sat ht.good)) ?_
  rintro num l5 ⟨ns, h5, h6, h7⟩
  have ht := ht.trans h7
  refine Sat.stepR ht (parseFieldOptionsOption_sat ht.good) ?_
  rintro opts l6 ⟨os, h8, h9⟩
  have ht := ht.trans h9
  refine step_expect .next rfl (by simp) (by simp) ht (fun x7 l7 g7 ht => ?_)
  rw [sat_position]
  obtain ⟨w', ws', e, hx⟩ := typeName_ne h3
  have hne : us ≠ [] := by intro h; rw [h] at e; simp at e
  refine ⟨_, ⟨by rw [← g3.text]; exact g3.reads.1, h6, words us, words os, h3, ?_, h8, ?_,
    spans_took ht (m := {}) rfl (congrArg SPos.p (hq hne).symm) (by simp [g7.pos])⟩, ht⟩
  · intro w hw
    rw [e] at hw
    simp only [List.head?_cons, Option.mem_def, Option.some.injEq] at hw
    subst hw
    rintro rfl
    rcases hx with hx | hx
    · simp at hx
    · exact hk (took_first h4 e hx (m := .kw) rfl).1
  · simp [g3.text, g4.punct rfl, h5, g7.punct rfl]

theorem optionToks_comments {G : Gram} {x : OptionStmt} {ts : List Tok} (h : OptionToks G x ts)
    (cs : List Comment) (i : Option Comment) :
    OptionToks G { x with comments := cs, inlineComment := i } ts := h

/-- What is known of an element with the inline comment `o`. -/
def ElemOut (R : List Tok → Prop) (o : Option Comment) (l l' : Lexer) : Prop :=
  ∃ seg t, R (toks seg) ∧ Starts seg ∧ EndsIn t seg ∧ TookI l (seg ++ opt o) l' ∧
    ∀ is l'', TookI l' is l'' → Behind t.pos.line o is

theorem elemOut {R : List Tok → Prop} {l l1 l2 : Lexer} {ts : List Tok} {i : Meta} {c o : Option Comment}
    (hn : NoCom l) (hR : R ts) (ht : Took l ts l1) (hs : Spans ts i) (he : Ended i c l1) (ho : Inline l1 o l2) :
    ElemOut R o l l2 := by
  obtain ⟨seg, t, rfl, h2, h3, h4⟩ := ended_seg ht hs he
  exact ⟨seg, t, hR, hn.starts h2 h3.ne, h3, h2.trans ho.took, fun is l'' h => ho.behind h4 h⟩

theorem parseOneofElement_sat {H : Halt → Prop} {cfg : Cfg} {cs : List Comment} {l : Lexer} (hg : Good l)
    (hn : NoCom l) :
    Sat H (fun r l' => match r with
          | .inl o => o.comments = cs ∧ ElemOut (OptionToks cfg.gram o) o.inlineComment l l'
          | .inr f => f.comments = cs ∧ ElemOut (OneofFieldToks cfg.gram f) f.inlineComment l l')
      (FailR (!cfg.permissive) l) (parseOneofElement cfg cs l) := by
  unfold parseOneofElement
  refine sat_peekKeyword hg ?_
  have hb := back_putBack hg .kw
  refine sat_ite (fun h => ?_) (fun h => ?_)
  · refine Sat.stepR (hb.took hg) ((parseOption_sat hb.good).and (parseOption_ends _ _)) ?_
    rintro o l1 ⟨⟨ts, h1, h2⟩, he⟩
    have ht := (hb.took hg).trans h2
    refine Sat.bind (parseInline_sat ht.good) ?_
    intro c l2 hc
    have hs : Spans ts o.info := by
      obtain ⟨_, _, _, _, _, h⟩ := h1
      exact h
    exact ⟨rfl, elemOut hn h1 ht hs he hc⟩
  · refine Sat.stepR (hb.took hg) ((parseOneofField_sat hb.good (by rw [hb.token]; exact h)).and
      (parseOneofField_ends _ _)) ?_
    rintro o l1 ⟨⟨ts, h1, h2⟩, he⟩
    have ht := (hb.took hg).trans h2
    refine Sat.bind (parseInline_sat ht.good) ?_
    intro c l2 hc
    have hs : Spans ts o.info := by
      obtain ⟨_, _, _, _, _, _, _, _, h⟩ := h1
      exact h
    exact ⟨rfl, elemOut hn h1 ht hs he hc⟩

theorem comOneof_items {G : Gram} {fs : List OneofField} {os : List OptionStmt} {is : List Item}
    (h : ComOneof G fs os is) : OneofItems G fs os (toks is) := by
  induction h with
  | lastField x seg b lost h1 => simpa [toks_append] using OneofItems.lastField x _ h1
  | lastOption x seg b lost h1 => simpa [toks_append] using OneofItems.lastOption x _ h1
  | field x seg b fs os js h1 _ _ _ _ ih => simpa [toks_append] using OneofItems.field x _ _ _ _ h1 ih
  | option x seg b fs os js h1 _ _ _ _ ih => simpa [toks_append] using OneofItems.option x _ _ _ _ h1 ih
  | empty lost t fs os js h1 _ ih => simpa [toks_append] using OneofItems.empty t _ _ _ h1 ih

theorem real_of {t : Token} {l : Lexer} (h : l.token = t) (h1 : t ≠ .illegal := by simp) (h2 : t ≠ .eof := by simp)
    (h3 : t ≠ .comment := by simp) : Real l.token := by
  rw [h]; exact ⟨h1, h2, h3⟩

theorem oneofLoop_sat {H : Halt → Prop} {cfg : Cfg} (n : Nat) :
    ∀ {l : Lexer} {fa : List OneofField} {oa : List OptionStmt}, Good l → l.scanner.inp.length < n →
    Sat H (fun r l' => ∃ fs os us x, r = (fa ++ fs, oa ++ os) ∧ ComOneof cfg.gram fs os us ∧
        x.text = c!"}" ∧ x.pos = l'.pos.p ∧ l'.scanner.pos.p.line = x.pos.line ∧ TookI l (us ++ [.tok x]) l')
      (Fail (!cfg.permissive) l) (oneofLoop cfg n fa oa l) := by
  induction n with
  | zero => intro _ _ _ _ h; omega
  | succ n ih =>
    intro l fa oa hg hn
    unfold oneofLoop
    refine stepI_comments (TookI.refl hg) (fun cs l1 ht hnc => ?_)
    simp only [List.nil_append] at ht
    have hl1 := ht.took.length
    simp at hl1
    refine Sat.bind (Q := fun r l2 => (∃ x, r = .ok () ∧ x.text = c!";" ∧ TookI l (coms cs ++ [.tok x]) l2) ∨
      (∃ e, r = .error e ∧ TookI l (coms cs) l2 ∧ NoCom l2))
      (Sat.attempt (readEmptyStatement_sat (sm := !cfg.permissive) ht.good) ?_ ?_) ?_
    · rintro _ l2 ⟨x, h1, h2, _, h3, _⟩
      obtain ⟨lost, h4, h5⟩ := h2.one (real_of h3)
      rw [h5 hnc] at h4
      exact .inl ⟨x, rfl, h1, ht.trans h4⟩
    · rintro e l2 ⟨_, rfl, _⟩
      exact .inr ⟨e, rfl, ht.back (back_putBack ht.good _), hnc.back (back_putBack ht.good _)⟩
    rintro r l2 (⟨x, rfl, hx, ht⟩ | ⟨e, rfl, ht, hnc⟩)
    · have hl := ht.took.length
      simp [toks_append] at hl
      refine (Sat.tail (E := Fail (!cfg.permissive)) ht.took (ih ht.good (by omega))).mono ?_ (fun _ _ h => h)
      rintro r' l' ⟨fs, os, us, y, rfl, h3, h4, h5, h7, h6⟩
      exact ⟨fs, os, _, y, rfl, .empty cs x _ _ _ hx h3, h4, h5, h7, by simpa using ht.trans h6⟩
    · refine Sat.stepR ht.took (parseOneofElement_sat ht.good hnc) ?_
      intro el l3 h1
      cases el with
      | inl o =>
        obtain ⟨rfl, seg, t, h1, h2, h3, h4, h5⟩ := h1
        have ht := ht.trans h4
        have hl := ht.took.length
        have h0 : 0 < (toks seg).length := by
          obtain ⟨t, js, rfl⟩ := h2; simp
        simp [toks_append] at hl
        simp only
        refine sat_next ht.good ?_
        rw [sat_tok]
        refine sat_ite (fun h => ?_) (fun h => ?_)
        · have g := got_next (m := {}) rfl h (by simp) (by simp)
          obtain ⟨lost, h6, _⟩ := next_items ht.good (m := {}) rfl (real_of h)
          have hb := (h5 _ _ h6).prefix
          have ht := ht.trans h6
          exact ⟨[], [o], _, _, by simp, .lastOption o seg t lost h1 h2 h3 hb, g.punct rfl, rfl,
            got_line rfl (by simp) (by simp) g (g.punct rfl) (by decide), by simpa using ht⟩
        · refine sat_unNext ?_
          have hbk := back_putBack ht.good {}
          have ht := ht.back hbk
          refine (Sat.tail (E := Fail (!cfg.permissive)) ht.took (ih ht.good (by show l3.scanner.inp.length < n; omega))).mono ?_ (fun _ _ h => h)
          rintro r' l' ⟨fs, os, us, y, rfl, k3, k4, k5, k7, k6⟩
          have hb := Spec.Behind.prefix (is := us) (js := [.tok y]) (by simpa using h5 _ _ (((TookI.refl (h4.good)).back hbk).trans k6))
          exact ⟨fs, o :: os, _, y, by simp, .option o seg t fs os us h1 h2 h3 hb k3, k4, k5, k7,
            by simpa using ht.trans k6⟩
      | inr f =>
        obtain ⟨rfl, seg, t, h1, h2, h3, h4, h5⟩ := h1
        have ht := ht.trans h4
        have hl := ht.took.length
        have h0 : 0 < (toks seg).length := by
          obtain ⟨t, js, rfl⟩ := h2; simp
        simp [toks_append] at hl
        simp only
        refine sat_next ht.good ?_
        rw [sat_tok]
        refine sat_ite (fun h => ?_) (fun h => ?_)
        · have g := got_next (m := {}) rfl h (by simp) (by simp)
          obtain ⟨lost, h6, _⟩ := next_items ht.good (m := {}) rfl (real_of h)
          have hb := (h5 _ _ h6).prefix
          have ht := ht.trans h6
          exact ⟨[f], [], _, _, by simp, .lastField f seg t lost h1 h2 h3 hb, g.punct rfl, rfl,
            got_line rfl (by simp) (by simp) g (g.punct rfl) (by decide), by simpa using ht⟩
        · refine sat_unNext ?_
          have hbk := back_putBack ht.good {}
          have ht := ht.back hbk
          refine (Sat.tail (E := Fail (!cfg.permissive)) ht.took (ih ht.good (by show l3.scanner.inp.length < n; omega))).mono ?_ (fun _ _ h => h)
          rintro r' l' ⟨fs, os, us, y, rfl, k3, k4, k5, k7, k6⟩
          have hb := Spec.Behind.prefix (is := us) (js := [.tok y]) (by simpa using h5 _ _ (((TookI.refl (h4.good)).back hbk).trans k6))
          exact ⟨f :: fs, os, _, y, by simp, .field f seg t fs os us h1 h2 h3 hb k3, k4, k5, k7,
            by simpa using ht.trans k6⟩

theorem word_ne {w : Str} {c : Char} (h : Word w) (hc : ¬ WordStart c) : w ≠ [c] := by
  rintro rfl
  cases h with
  | mk _ _ h _ => exact hc h

theorem curly_not_word : ¬ WordStart '{' := by unfold WordStart; decide
theorem square_not_word : ¬ WordStart '[' := by unfold WordStart; decide

theorem parseOneof_sat {H : Halt → Prop} {cfg : Cfg} {l : Lexer} (hg : Good l) :
    Sat H (fun r l' => ∃ ts, OneofToks cfg.gram r ts ∧ Took l ts l' ∧ r.inlineComment = none ∧
        ∀ b cs, SegOut cfg.gram b l (.oneof { r with comments := cs }) ts l')
      (Fail (!cfg.permissive) l) (parseOneof cfg l) := by
  unfold parseOneof
  refine step_expect (.with_ .kw) rfl (by simp) (by simp) (Took.refl hg) (fun x1 l1 g1 ht => ?_)
  rw [sat_position]
  refine step_expect .next rfl (by simp) (by simp) ht (fun x2 l2 g2 ht => ?_)
  rw [sat_txt]
  refine step_expect .next rfl (by simp) (by simp) ht (fun x3 l3 g3 ht => ?_)
  obtain ⟨hd, ht, e1, e2, _⟩ := ht.seg (real_of g3.token)
  have hu : UpTo c!"{" x3 hd := e2.upTo e1 (g3.punct rfl) (by
    intro t h
    simp only [List.nil_append, List.cons_append, List.mem_cons, List.not_mem_nil, or_false] at h
    rcases h with rfl | rfl
    · rw [g1.kw rfl]; decide
    · exact word_ne g2.reads.1 curly_not_word)
  refine stepI_inline ht (fun c l4 ht hi => ?_)
  rw [sat_bound]
  refine Sat.step ht.took (oneofLoop_sat _ ht.good (by omega)) ?_
  rintro ⟨fs, os⟩ l5 ⟨fs', os', us, y, e, h1, h2, h3, h5, h4⟩
  simp only [List.nil_append, Prod.mk.injEq] at e
  obtain ⟨rfl, rfl⟩ := e
  have ht := ht.trans h4
  refine Sat.bind (blockLastPos_sat h4.good h2 h3 h5) ?_
  rintro q l6 ⟨tl, h6, hc⟩
  have ht := ht.trans h6
  have hbl := hc.block hu hi (by rw [g3.pos]) (by simpa using h4.trans h6)
  obtain ⟨t, k1, k2, k3⟩ := hc.last
  have hts : toks (hd ++ opt c ++ us ++ .tok y :: tl) = [x1, x2, x3] ++ toks us ++ (toks (.tok y :: tl)) := by
    simp [toks_append, e1]
  refine ⟨toks (hd ++ opt c ++ us ++ .tok y :: tl),
    ⟨by rw [← g2.text]; exact g2.reads.1, [x1, x2, x3], toks us, toks (.tok y :: tl), ?_, comOneof_items h1, hc.close, ?_, ?_⟩,
    by simpa using ht.took, rfl, fun b cs => ⟨_, t, rfl, by simpa using ht, k1.append _, k3, fun _ _ => .oneof _ us _ h1 hbl⟩⟩
  · simp [g1.kw rfl, g2.text, g3.punct rfl]
  · exact hts
  · obtain ⟨ks, h7⟩ := k1
    rw [hts, h7, toks_append]
    simpa using spans_mk (a := x1) (mid := [x2, x3] ++ toks us ++ toks ks) (b := t) (info := ⟨l1.pos.p, q.p⟩) g1.pos k2

end Parser
end Verif
