import Verif.Proofs.CompleteOption
import Verif.Proofs.ParseField

/-!
# field.go, mapField.go and oneof.go accept the fields of the grammar
-/

set_option backward.isDefEq.respectTransparency false
set_option backward.dsimp.instances true

namespace Verif
variable {T : Src}
open Spec Scanner Lexer
open M (bind_ok run_get)

/-- A spelling that can start a type name. -/
def Lead (w : Str) : Prop := Word w ∨ w = c!"."

theorem tokIs_lead {w : Str} (h : Lead w) : ∃ t, TokIs .kw w t ∧
    (∀ t' k, spelling t' = some k → w ≠ k → t ≠ t') ∧ (t = .ident ∨ t = .dot ∨ spelling t = some w) := by
  rcases h with h | rfl
  · refine ⟨_, tokIs_word .kw h, ?_, ?_⟩
    · intro t' k hk hne e
      rcases wordToken_cases .kw w with h | h | h | h
      · rw [e] at h; subst h; simp [spelling] at hk
      · rw [e] at h; subst h; simp [spelling] at hk
      · rw [e] at h; subst h; simp [spelling] at hk
      · rw [e, hk] at h; simp at h; exact hne h.symm
    · unfold wordToken
      by_cases h : asKeywordToken w = .illegal
      · simp [Mode.kw, h]
      · simp [Mode.kw, h, asKeywordToken_spelling h]
  · refine ⟨.dot, tokIs_punct rfl (by simp [Mode.kw]), ?_, by simp⟩
    rintro t' k hk _ rfl
    simp [spelling] at hk

theorem Lead.free {w : Str} {ws : List Str} (h : Lead w) : Free c!"'\"{}[](),;:=<>-+" (w :: ws) := by
  rcases h with h | rfl
  · exact (free_word' h).mono (by decide)
  · exact free_cons (by decide)

theorem messageType_lead {s : Str} {ws : List Str} (h : MessageType s ws) :
    ∃ w ws', ws = w :: ws' ∧ Lead w := by
  cases h with
  | plain s ws h =>
    obtain ⟨w, ds, hw, _, _, rfl⟩ := FullIdent.split h
    exact ⟨_, _, rfl, .inl hw⟩
  | dot s ws h => exact ⟨_, _, rfl, .inr rfl⟩

theorem typeName_lead {s : Str} {ws : List Str} (h : TypeName s ws) : ∃ w ws', ws = w :: ws' ∧ Lead w := by
  cases h with
  | scalar hs => exact ⟨_, _, rfl, .inl (scalars_word _ hs)⟩
  | named ws h _ => exact messageType_lead h

/-- Reading a keyword token of which it is known that it is not the given one. -/
theorem Ahead.ne_keyword {l : Lexer} {w : Str} {ws : List Str} (h : Ahead T l (w :: ws)) (hw : Lead w)
    {t : Token} {k : Str} (hs : spelling t = some k) (hne : w ≠ k) : (nextSt .kw l).token ≠ t := by
  obtain ⟨t', h1, h2, _⟩ := tokIs_lead hw
  rw [(h.next rfl h1).1]
  exact h2 t k hs hne

namespace Parser

section
variable {H : Halt → Prop} {E : Err → Lexer → Prop} {l : Lexer} {rest : List Str} {cfg : Cfg} {G : Gram}

/-! ## field.go -/

theorem parseType_go {s : Str} {ws : List Str} (hs : TypeName s ws) (hr : Free ['.'] rest)
    (h : Ahead T l (ws ++ rest)) : Sat H (fun r l' => r.1 = s ∧ Ahead T l' rest) E (parseType l) := by
  unfold parseType
  refine sat_next h.good ?_
  rw [sat_txt]
  cases hs with
  | scalar hs =>
    obtain ⟨_, h2, h3⟩ := Ahead.next (w := s) (ws := rest) h (m := {}) rfl (tokIs_ident (scalars_word _ hs))
    rw [h2]
    refine sat_pos hs ?_
    exact ⟨rfl, h3⟩
  | named ws hm hn =>
    obtain ⟨w, ws', e, hw⟩ := messageType_lead hm
    have h2 : (nextSt {} l).text = w := by
      rw [e] at h
      rcases hw with hw | rfl
      · exact (Ahead.next (w := w) (ws := ws' ++ rest) h (m := {}) rfl (tokIs_ident hw)).2.1
      · exact (Ahead.next (w := c!".") (ws := ws' ++ rest) h (m := {}) rfl tokIs_dot).2.1
    refine sat_neg (by rw [h2]; exact hn w (by simp [e])) ?_
    refine sat_unNext ?_
    exact readMessageType_go hm hr (h.putBack {})

theorem parseFieldNumber_go {w : Str} (hw : IntLit w) (h : Ahead T l (w :: rest)) :
    Sat H (fun r l' => r = w ∧ Ahead T l' rest) E (parseFieldNumber l) := by
  unfold parseFieldNumber
  refine go_expect h (.with_ _) rfl (tokIs_int rfl hw) (fun l1 _ h2 h3 => ?_)
  exact ⟨h2, h3⟩

theorem parseFieldOption_go (hG : G.permissive = cfg.permissive) (hl : G.loose = false) {x : FieldOption}
    {ws : List Str} (hx : FieldOptionToks G x ws) (hr : Free after rest) (h : Ahead T l (ws ++ rest)) :
    Sat H (fun r l' => r = x ∧ Ahead T l' rest) E (parseFieldOption cfg l) := by
  obtain ⟨ns, cs, h1, h2, rfl⟩ := hx
  unfold parseFieldOption
  refine Sat.bind (parseOptionName_go hG h1 (rest := c!"=" :: cs ++ rest) (free_cons (by decide))
    (by simpa using h)) ?_
  rintro r l2 ⟨rfl, k2⟩
  refine go_expect (w := c!"=") (ws := cs ++ rest) (by simpa using k2) .next rfl tokIs_equals
    (fun l3 _ _ k3 => ?_)
  refine Sat.bind (parseOptionConstant_go hG hl h2 hr k3) ?_
  rintro r l4 ⟨rfl, k4⟩
  exact ⟨rfl, k4⟩

theorem FieldOptionTail.snoc {xs : List FieldOption} {x : FieldOption} {ws ws' : List Str}
    (h : FieldOptionTail G xs ws) (h' : FieldOptionToks G x ws') :
    FieldOptionTail G (xs ++ [x]) (ws ++ c!"," :: ws') := by
  induction h with
  | nil => simpa using FieldOptionTail.cons x ws' [] [] h' .nil
  | cons a as b bs ha _ ih => simpa using FieldOptionTail.cons a as _ _ ha ih

theorem FieldOptionList.split {xs : List FieldOption} {ws : List Str} (h : FieldOptionList G xs ws) :
    ∃ a as b bs, FieldOptionToks G a as ∧ FieldOptionTail G b bs ∧ xs = a :: b ∧ ws = as ++ bs := by
  induction h with
  | one s ws h => exact ⟨s, ws, [], [], h, .nil, by simp, by simp⟩
  | more s ws s' ws' _ h' ih =>
    obtain ⟨a, as, b, bs, h1, h2, rfl, rfl⟩ := ih
    exact ⟨a, as, _, _, h1, h2.snoc h', by simp, by simp⟩

theorem fieldOptionTail_free {xs : List FieldOption} {ws : List Str} (h : FieldOptionTail G xs ws)  :
    Free after (ws ++ c!"]" :: rest) := by
  cases h with
  | nil => exact free_cons (by decide)
  | cons => exact free_cons (by decide)

theorem fieldOptionsLoop_go (hG : G.permissive = cfg.permissive) (hl : G.loose = false) {e : String} (n : Nat) :
    ∀ {l : Lexer} {acc xs : List FieldOption} {ws : List Str}, FieldOptionTail G xs ws →
      Ahead T l (ws ++ c!"]" :: rest) → ws.length < n →
    Sat H (fun r l' => r = acc ++ xs ∧ Ahead T l' (c!"]" :: rest)) E (fieldOptionsLoop cfg e n acc l) := by
  induction n with
  | zero => intro _ _ _ _ _ _ h; omega
  | succ n ih =>
    intro l acc xs ws hs h hn
    unfold fieldOptionsLoop
    refine sat_next h.good ?_
    rw [sat_tok]
    cases hs with
    | nil =>
      have h4 : (nextSt {} l).token ≠ .comma := h.ne_punct rfl rfl (bad := [',']) (free_cons (by decide)) (by simp)
      refine sat_pos h4 ?_
      refine sat_unNext ?_
      exact ⟨by simp, h.putBack {}⟩
    | cons a as b bs ha hb =>
      obtain ⟨h4, h5, h6⟩ := Ahead.next (w := c!",") (ws := as ++ (bs ++ c!"]" :: rest))
        (by simpa using h) (m := {}) rfl tokIs_comma
      refine sat_neg (by simp [h4]) ?_
      simp only [List.length_append, List.length_cons] at hn
      refine Sat.bind (orUnexpected_go (parseFieldOption_go hG hl ha (fieldOptionTail_free hb) h6)) ?_
      rintro r l2 ⟨rfl, h7⟩
      refine (ih hb h7 (by omega)).mono ?_ (fun _ _ h => h)
      rintro r' l' ⟨rfl, h7⟩
      exact ⟨by simp, h7⟩

theorem parseFieldOptions_go (hG : G.permissive = cfg.permissive) (hl : G.loose = false)
    {xs : List FieldOption} {ws : List Str} (hs : FieldOptionList G xs ws) (h : Ahead T l (ws ++ c!"]" :: rest)) :
    Sat H (fun r l' => r = xs ∧ Ahead T l' (c!"]" :: rest)) E (parseFieldOptions cfg l) := by
  obtain ⟨a, as, b, bs, h1, h2, rfl, rfl⟩ := FieldOptionList.split hs
  unfold parseFieldOptions
  refine Sat.bind (parseFieldOption_go hG hl h1 (fieldOptionTail_free h2) (by simpa using h)) ?_
  rintro r l2 ⟨rfl, h3⟩
  rw [sat_bound]
  exact fieldOptionsLoop_go hG hl _ h2 h3 (Ahead.bound h3)

theorem parseFieldOptionsOption_go (hG : G.permissive = cfg.permissive) (hl : G.loose = false)
    {xs : List FieldOption} {ws : List Str} (hs : FieldOptions G xs ws) (hr : Free ['['] rest)
    (h : Ahead T l (ws ++ rest)) :
    Sat H (fun r l' => r = xs ∧ Ahead T l' rest) E (parseFieldOptionsOption cfg l) := by
  unfold parseFieldOptionsOption
  refine sat_next h.good ?_
  rw [sat_tok]
  cases hs with
  | none =>
    have h4 : (nextSt {} l).token ≠ .leftSquare := h.ne_punct rfl rfl hr (by simp)
    refine sat_neg h4 ?_
    refine sat_unNext ?_
    exact ⟨rfl, h.putBack {}⟩
  | some xs ws hxs =>
    obtain ⟨h1, _, h3⟩ := Ahead.next (w := c!"[") (ws := ws ++ c!"]" :: rest) (by simpa using h)
      (m := {}) rfl tokIs_lsquare
    refine sat_pos h1 ?_
    refine Sat.bind (parseFieldOptions_go hG hl hxs h3) ?_
    rintro r l2 ⟨rfl, h4⟩
    refine go_expect h4 .next rfl tokIs_rsquare (fun l5 _ _ k5 => ?_)
    exact ⟨rfl, k5⟩

theorem parseLabel_go {a b c : Bool} {ls us : List Str} (hs : Labelled a b c ls)
    (hu : ∃ w us', us = w :: us' ∧ Lead w ∧ (ls = [] → w ∉ labelWords)) (h : Ahead T l (ls ++ us)) :
    Sat H (fun r l' => r = ⟨a, b, c⟩ ∧ Ahead T l' us) E (parseLabel (nextSt .kw l)) := by
  unfold parseLabel
  rw [sat_tok]
  cases hs with
  | none =>
    obtain ⟨w, us', rfl, hw, hn⟩ := hu
    have hn := hn rfl
    simp only [labelWords, List.mem_cons, not_or] at hn
    refine sat_neg (Ahead.ne_keyword (by simpa using h) hw rfl hn.1) ?_
    refine sat_neg (Ahead.ne_keyword (by simpa using h) hw rfl hn.2.1) ?_
    refine sat_neg (Ahead.ne_keyword (by simpa using h) hw rfl hn.2.2.1) ?_
    refine sat_unNext ?_
    exact ⟨rfl, h.putBack _⟩
  | repeated =>
    obtain ⟨h1, _, h3⟩ := Ahead.next (w := c!"repeated") (ws := us) h (m := .kw) rfl
      (tokIs_keyword (t := .kRepeated) rfl rfl rfl rfl)
    refine sat_pos h1 ?_
    exact ⟨rfl, h3⟩
  | required =>
    obtain ⟨h1, _, h3⟩ := Ahead.next (w := c!"required") (ws := us) h (m := .kw) rfl
      (tokIs_keyword (t := .kRequired) rfl rfl rfl rfl)
    refine sat_neg (by simp [h1]) ?_
    refine sat_pos h1 ?_
    exact ⟨rfl, h3⟩
  | optional =>
    obtain ⟨h1, _, h3⟩ := Ahead.next (w := c!"optional") (ws := us) h (m := .kw) rfl
      (tokIs_keyword (t := .kOptional) rfl rfl rfl rfl)
    refine sat_neg (by simp [h1]) ?_
    refine sat_neg (by simp [h1]) ?_
    refine sat_pos h1 ?_
    exact ⟨rfl, h3⟩

theorem parseField_go (hG : G.permissive = cfg.permissive) (hl : G.loose = false)
    {x : Field} {ts : List Tok} (hx : FieldToks G x ts) (h : Ahead T l (words ts ++ rest)) :
    Sat H (fun r l' => bareField r = bareField x ∧ Ahead T l' rest) E (parseField cfg l) := by
  obtain ⟨hn, hi, ls, ws, os, h1, h2, h3, h4, h5, _⟩ := hx
  rw [h5] at h
  unfold parseField
  refine sat_nextWith h.good ?_
  rw [sat_position]
  obtain ⟨w, ws', e, hw⟩ := typeName_lead h2
  refine Sat.bind (parseLabel_go (us := ws ++ ([x.fieldName, c!"=", x.fieldNumber] ++ os ++ c!";" :: rest)) h1
    ⟨w, ws' ++ ([x.fieldName, c!"=", x.fieldNumber] ++ os ++ c!";" :: rest), by rw [e]; rfl, hw,
      fun hls => h3 hls w (by simp [e])⟩ (by simpa using h)) ?_
  rintro r l1 ⟨rfl, k1⟩
  refine Sat.bind (orUnexpected_go (parseType_go h2 (by simpa using (free_word' hn).mono (by decide)) k1)) ?_
  rintro ⟨r, p⟩ l2 ⟨e2, k2⟩
  refine go_expect (by simpa using k2) .next rfl (tokIs_ident hn) (fun l3 _ e3 k3 => ?_)
  rw [sat_txt]
  refine go_expect k3 .next rfl tokIs_equals (fun l4 _ _ k4 => ?_)
  refine Sat.bind (orUnexpected_go (parseFieldNumber_go hi k4)) ?_
  rintro r l5 ⟨rfl, k5⟩
  refine Sat.bind (parseFieldOptionsOption_go hG hl h4 (free_cons (by decide)) k5) ?_
  rintro r l6 ⟨rfl, k6⟩
  refine go_expect k6 .next rfl tokIs_semi (fun l7 _ _ k7 => ?_)
  refine ⟨?_, k7⟩
  simp only at e2
  simp only [bareField, e2, e3]

/-! ## mapField.go -/

theorem keyTypes_word : ∀ w ∈ keyTypes, Word w := by
  intro w hw
  refine scalars_word w ?_
  revert w
  decide

theorem parseMapField_go (hG : G.permissive = cfg.permissive) (hl : G.loose = false)
    {x : MapField} {ts : List Tok} (hx : MapFieldToks G x ts) (h : Ahead T l (words ts ++ rest)) :
    Sat H (fun r l' => bareMapField r = bareMapField x ∧ Ahead T l' rest) E (parseMapField cfg l) := by
  obtain ⟨hk, hn, hi, ws, os, h2, h4, h5, _⟩ := hx
  rw [h5] at h
  unfold parseMapField
  refine go_expect (w := c!"map") (by simpa using h) (.with_ _) rfl (tokIs_keyword rfl rfl rfl rfl)
    (fun l1 _ _ k1 => ?_)
  rw [sat_position]
  refine go_expect k1 .next rfl (tokIs_punct rfl (by simp)) (fun l2 _ _ k2 => ?_)
  refine Sat.bind (Q := fun r l' => r = x.keyType ∧
    Ahead T l' (c!"," :: (ws ++ ([c!">", x.mapName, c!"=", x.fieldNumber] ++ os ++ c!";" :: rest)))) ?_ ?_
  · unfold parseKeyType
    refine sat_next k2.good ?_
    rw [sat_txt]
    obtain ⟨_, e3, k3⟩ := k2.next (m := {}) rfl (tokIs_ident (keyTypes_word _ hk))
    rw [e3]
    refine sat_pos hk ?_
    exact ⟨rfl, by simpa using k3⟩
  rintro r l3 ⟨rfl, k3⟩
  refine go_expect k3 .next rfl tokIs_comma (fun l4 _ _ k4 => ?_)
  refine Sat.bind (orUnexpected_go (parseType_go h2 (free_cons (by decide)) k4)) ?_
  rintro ⟨r, p⟩ l5 ⟨e2, k5⟩
  refine go_expect (by simpa using k5) .next rfl (tokIs_punct (c := '>') rfl (by simp)) (fun l6 _ _ k6 => ?_)
  refine go_expect k6 .next rfl (tokIs_ident hn) (fun l3 _ e3 k3 => ?_)
  rw [sat_txt]
  refine go_expect k3 .next rfl tokIs_equals (fun l4 _ _ k4 => ?_)
  refine Sat.bind (orUnexpected_go (parseFieldNumber_go hi k4)) ?_
  rintro r l5 ⟨rfl, k5⟩
  refine Sat.bind (parseFieldOptionsOption_go hG hl h4 (free_cons (by decide)) k5) ?_
  rintro r l6 ⟨rfl, k6⟩
  refine go_expect k6 .next rfl tokIs_semi (fun l7 _ _ k7 => ?_)
  refine ⟨?_, k7⟩
  simp only at e2
  simp only [bareMapField, e2, e3]

/-! ## oneof.go -/

theorem parseOneofField_go (hG : G.permissive = cfg.permissive) (hl : G.loose = false)
    {x : OneofField} {ts : List Tok} (hx : OneofFieldToks G x ts) (h : Ahead T l (words ts ++ rest)) :
    Sat H (fun r l' => bareOneofField r = bareOneofField x ∧ Ahead T l' rest) E (parseOneofField cfg l) := by
  obtain ⟨hn, hi, ws, os, h2, _, h4, h5, _⟩ := hx
  rw [h5] at h
  unfold parseOneofField
  refine Sat.bind (orUnexpected_go (parseType_go h2
    (rest := [x.fieldName, c!"=", x.fieldNumber] ++ os ++ c!";" :: rest)
    (by simpa using (free_word' hn).mono (by decide)) (by simpa using h))) ?_
  rintro ⟨r, p⟩ l2 ⟨e2, k2⟩
  refine go_expect (by simpa using k2) .next rfl (tokIs_ident hn) (fun l3 _ e3 k3 => ?_)
  rw [sat_txt]
  refine go_expect k3 .next rfl tokIs_equals (fun l4 _ _ k4 => ?_)
  refine Sat.bind (orUnexpected_go (parseFieldNumber_go hi k4)) ?_
  rintro r l5 ⟨rfl, k5⟩
  refine Sat.bind (parseFieldOptionsOption_go hG hl h4 (free_cons (by decide)) k5) ?_
  rintro r l6 ⟨rfl, k6⟩
  refine go_expect k6 .next rfl tokIs_semi (fun l7 _ _ k7 => ?_)
  refine ⟨?_, k7⟩
  simp only at e2
  simp only [bareOneofField, e2, e3]

/-- After the right curly of a block. -/
theorem blockLastPos_go {cl : List Str} (hc : cl = [] ∨ (cfg.permissive = true ∧ cl = [c!";"]))
    (hf : cfg.permissive = true → cl = [] → Free [';'] rest) (h : Ahead T l (cl ++ rest)) :
    Sat H (fun _ l' => Ahead T l' rest) E (blockLastPos cfg l) := by
  unfold blockLastPos
  rw [sat_position]
  refine sat_ite (fun hp => ?_) (fun hp => ?_)
  · refine sat_run (consumeToken_eq h.good _) ?_
    rw [sat_tok]
    have key : Ahead T (if (nextSt {} l).token = .semicolon then nextSt {} l else putBack {} l) rest := by
      rcases hc with rfl | ⟨_, rfl⟩
      · rw [if_neg (h.ne_punct rfl rfl (hf hp rfl) (by simp))]
        exact h.putBack {}
      · obtain ⟨h1, _, h3⟩ := Ahead.next (w := c!";") (ws := rest) h (m := {}) rfl tokIs_semi
        rw [if_pos h1]
        exact h3
    refine sat_ite (fun _ => ?_) (fun _ => ?_)
    · exact key
    · exact key
  · rcases hc with rfl | ⟨h, _⟩
    · exact h
    · exact absurd h hp

/-- An element of a oneof. -/
theorem oneofFieldToks_first {x : OneofField} {ts : List Tok} (hx : OneofFieldToks G x ts) :
    ∃ w ws, words ts = w :: ws ∧ Lead w ∧ w ≠ c!"option" := by
  obtain ⟨hn, hi, ws, os, h2, h3, h4, h5, _⟩ := hx
  obtain ⟨w, ws', rfl, hw⟩ := typeName_lead h2
  exact ⟨w, _, by rw [h5]; rfl, hw, h3 w rfl⟩

theorem optionToks_first {x : OptionStmt} {ts : List Tok} (hx : OptionToks G x ts) :
    ∃ ws, words ts = c!"option" :: ws := by
  obtain ⟨ns, cs, _, _, h3, _⟩ := hx
  exact ⟨_, h3⟩

theorem word_option : Word c!"option" := spelling_word (t := .kOption) rfl

theorem oneofItems_first {fs : List OneofField} {os : List OptionStmt} {ts : List Tok}
    (h : OneofItems G fs os ts) : ∃ w ws, words ts = w :: ws ∧ (Lead w ∨ w = c!";") := by
  cases h with
  | lastField x ts h =>
    obtain ⟨w, ws, h1, h2, _⟩ := oneofFieldToks_first h
    exact ⟨w, ws, h1, .inl h2⟩
  | lastOption x ts h =>
    obtain ⟨ws, h1⟩ := optionToks_first h
    exact ⟨_, ws, h1, .inl (.inl word_option)⟩
  | field x ts fs os ts' h _ =>
    obtain ⟨w, ws, h1, h2, _⟩ := oneofFieldToks_first h
    exact ⟨w, ws ++ words ts', by simp [words] at h1 ⊢; simp [h1], .inl h2⟩
  | option x ts fs os ts' h _ =>
    obtain ⟨ws, h1⟩ := optionToks_first h
    exact ⟨_, ws ++ words ts', by simp [words] at h1 ⊢; simp [h1], .inl (.inl word_option)⟩
  | empty t fs os ts h _ => exact ⟨c!";", words ts, by simp [words, h], .inr rfl⟩

theorem words_append (a b : List Tok) : words (a ++ b) = words a ++ words b := by simp [words]
theorem words_cons (a : Tok) (b : List Tok) : words (a :: b) = a.text :: words b := rfl

theorem go_noEmpty {α : Type} {Q : α → Lexer → Prop} {f : Except Err Unit → P α} {w : Str} {ws : List Str}
    (h : Ahead T l (w :: ws)) (hw : Lead w)
    (hf : ∀ e l', Ahead T l' (w :: ws) → Sat H Q E (f (.error e) l')) :
    Sat H Q E ((M.attempt readEmptyStatement >>= f) l) := by
  have h1 : (nextSt {} l).token ≠ .semicolon := h.ne_punct rfl rfl hw.free (by decide)
  refine Sat.bind (Q := fun r l' => ∃ e, r = .error e ∧ Ahead T l' (w :: ws))
    (Sat.attempt (Q := fun _ _ => False) (E := fun _ l' => Ahead T l' (w :: ws)) ?_ ?_ ?_) ?_
  · rw [readEmptyStatement_eq h.good, if_neg h1]
    exact h.putBack {}
  · exact fun _ _ h => h.elim
  · exact fun e _ h => ⟨e, rfl, h⟩
  · rintro r l' ⟨e, rfl, h⟩
    exact hf e l' h

theorem go_empty {α : Type} {Q : α → Lexer → Prop} {f : Except Err Unit → P α} {ws : List Str}
    (h : Ahead T l (c!";" :: ws)) (hf : ∀ l', Ahead T l' ws → Sat H Q E (f (.ok ()) l')) :
    Sat H Q E ((M.attempt readEmptyStatement >>= f) l) := by
  obtain ⟨h1, _, h3⟩ := h.next (m := {}) rfl tokIs_semi
  refine go_attempt (Q := fun _ l' => Ahead T l' ws) ?_ (fun _ l' h => hf l' h)
  rw [readEmptyStatement_eq h.good, if_pos h1]
  exact h3

theorem parseOneofElement_field (hG : G.permissive = cfg.permissive) (hl : G.loose = false)
    {x : OneofField} {ts : List Tok} (hx : OneofFieldToks G x ts) {cs : List Comment}
    (h : Ahead T l (words ts ++ rest)) :
    Sat H (fun r l' => (∃ y, r = .inr y ∧ bareOneofField y = bareOneofField x) ∧ Ahead T l' rest) E
      (parseOneofElement cfg cs l) := by
  obtain ⟨w, ws, e, hw, hne⟩ := oneofFieldToks_first hx
  unfold parseOneofElement
  refine sat_peekKeyword h.good ?_
  refine sat_neg (Ahead.ne_keyword (w := w) (ws := ws ++ rest) (by rw [e] at h; simpa using h) hw rfl hne) ?_
  refine Sat.bind (parseOneofField_go hG hl hx (h.putBack _)) ?_
  rintro r l1 ⟨h1, k1⟩
  refine go_inline k1 (fun c l2 k2 => ?_)
  exact ⟨⟨_, rfl, h1⟩, k2⟩

theorem parseOneofElement_option (hG : G.permissive = cfg.permissive) (hl : G.loose = false)
    {x : OptionStmt} {ts : List Tok} (hx : OptionToks G x ts) {cs : List Comment}
    (h : Ahead T l (words ts ++ rest)) :
    Sat H (fun r l' => (∃ y, r = .inl y ∧ bareOption y = bareOption x) ∧ Ahead T l' rest) E
      (parseOneofElement cfg cs l) := by
  obtain ⟨ws, e⟩ := optionToks_first hx
  unfold parseOneofElement
  refine sat_peekKeyword h.good ?_
  refine sat_pos (Ahead.next (w := c!"option") (ws := ws ++ rest) (by rw [e] at h; simpa using h) rfl
    (tokIs_keyword rfl rfl rfl rfl)).1 ?_
  refine Sat.bind (parseOption_go hG hl hx (h.putBack _)) ?_
  rintro r l1 ⟨h1, k1⟩
  refine go_inline k1 (fun c l2 k2 => ?_)
  exact ⟨⟨_, rfl, h1⟩, k2⟩

theorem oneofLoop_go (hG : G.permissive = cfg.permissive) (hl : G.loose = false) (n : Nat) :
    ∀ {l : Lexer} {fa fs : List OneofField} {oa os : List OptionStmt} {ts : List Tok}, OneofItems G fs os ts →
      Ahead T l (words ts ++ c!"}" :: rest) → ts.length < n →
    Sat H (fun r l' => (r.1.map bareOneofField = fa.map bareOneofField ++ fs.map bareOneofField ∧
        r.2.map bareOption = oa.map bareOption ++ os.map bareOption) ∧ Ahead T l' rest) E
      (oneofLoop cfg n fa oa l) := by
  induction n with
  | zero => intro _ _ _ _ _ _ _ _ h; omega
  | succ n ih =>
    intro l fa fs oa os ts hs h hn
    unfold oneofLoop
    refine go_comments h (fun cs l1 h => ?_)
    have more : ∀ {fs : List OneofField} {os : List OptionStmt} {ts : List Tok} {l : Lexer}, OneofItems G fs os ts →
        Ahead T l (words ts ++ c!"}" :: rest) → (nextSt {} l).token ≠ .rightCurly := by
      intro fs os ts l hs h
      obtain ⟨w, ws, e, hw⟩ := oneofItems_first hs
      rw [e] at h
      refine h.ne_punct rfl rfl (bad := ['}']) ?_ (by simp)
      rcases hw with hw | rfl
      · exact hw.free.mono (by decide)
      · exact free_cons (by decide)
    cases hs with
    | empty t fs os ts ht hs =>
      refine go_empty (ws := words ts ++ c!"}" :: rest) (by simpa [words_cons, ht] using h) (fun l2 h => ?_)
      exact ih hs h (by simp at hn; omega)
    | lastField x ts hx =>
      obtain ⟨w, ws, e, hw, hne⟩ := oneofFieldToks_first hx
      refine go_noEmpty (w := w) (ws := ws ++ c!"}" :: rest) (by rw [e] at h; simpa using h) hw
        (fun er l2 h => ?_)
      refine Sat.bind (parseOneofElement_field hG hl hx (by rw [e]; exact h)) ?_
      rintro r l3 ⟨⟨y, rfl, hy⟩, k3⟩
      refine sat_next k3.good ?_
      obtain ⟨k4, _, k5⟩ := k3.next (m := {}) rfl tokIs_rcurly
      rw [sat_tok]
      refine sat_pos k4 ?_
      exact ⟨⟨by simp [hy], by simp⟩, k5⟩
    | lastOption x ts hx =>
      obtain ⟨ws, e⟩ := optionToks_first hx
      refine go_noEmpty (w := c!"option") (ws := ws ++ c!"}" :: rest) (by rw [e] at h; simpa using h)
        (.inl word_option) (fun er l2 h => ?_)
      refine Sat.bind (parseOneofElement_option hG hl hx (by rw [e]; exact h)) ?_
      rintro r l3 ⟨⟨y, rfl, hy⟩, k3⟩
      refine sat_next k3.good ?_
      obtain ⟨k4, _, k5⟩ := k3.next (m := {}) rfl tokIs_rcurly
      rw [sat_tok]
      refine sat_pos k4 ?_
      exact ⟨⟨by simp, by simp [hy]⟩, k5⟩
    | field x ts fs os ts' hx hs =>
      obtain ⟨w, ws, e, hw, hne⟩ := oneofFieldToks_first hx
      refine go_noEmpty (w := w) (ws := ws ++ (words ts' ++ c!"}" :: rest))
        (by rw [words_append, e] at h; simpa using h) hw (fun er l2 h => ?_)
      refine Sat.bind (parseOneofElement_field hG hl hx (by rw [e]; exact h)) ?_
      rintro r l3 ⟨⟨y, rfl, hy⟩, k3⟩
      refine sat_next k3.good ?_
      rw [sat_tok]
      refine sat_neg (more hs k3) ?_
      refine sat_unNext ?_
      have : 0 < ts.length := by
        have := congrArg List.length e
        simp [words] at this; omega
      refine (ih hs (k3.putBack {}) (by simp at hn; omega)).mono ?_ (fun _ _ h => h)
      rintro r l' ⟨⟨h1, h2⟩, h3⟩
      exact ⟨⟨by simp [h1, hy], h2⟩, h3⟩
    | option x ts fs os ts' hx hs =>
      obtain ⟨ws, e⟩ := optionToks_first hx
      refine go_noEmpty (w := c!"option") (ws := ws ++ (words ts' ++ c!"}" :: rest))
        (by rw [words_append, e] at h; simpa using h) (.inl word_option) (fun er l2 h => ?_)
      refine Sat.bind (parseOneofElement_option hG hl hx (by rw [e]; exact h)) ?_
      rintro r l3 ⟨⟨y, rfl, hy⟩, k3⟩
      refine sat_next k3.good ?_
      rw [sat_tok]
      refine sat_neg (more hs k3) ?_
      refine sat_unNext ?_
      have : 0 < ts.length := by
        have := congrArg List.length e
        simp [words] at this; omega
      refine (ih hs (k3.putBack {}) (by simp at hn; omega)).mono ?_ (fun _ _ h => h)
      rintro r l' ⟨⟨h1, h2⟩, h3⟩
      exact ⟨⟨h1, by simp [h2, hy]⟩, h3⟩

/-- The end of a block. -/
theorem Close.split {cl : List Tok} (h : Close G cl) : ∃ tl, words cl = c!"}" :: tl ∧
    (tl = [] ∨ (G.permissive = true ∧ tl = [c!";"])) := by
  rcases h with h | ⟨hp, h⟩
  · exact ⟨[], h, .inl rfl⟩
  · exact ⟨_, h, .inr ⟨hp, rfl⟩⟩

/-- In permissive mode, what follows a right curly does not start with a semicolon. -/
def Shut (cfg : Cfg) (ts : List Tok) (rest : List Str) : Prop :=
  cfg.permissive = true → (words ts).getLast? = some c!"}" → Free [';'] rest

theorem Shut.close {ts : List Tok} {pre tl : List Str} (h : Shut cfg ts rest)
    (e : words ts = pre ++ c!"}" :: tl) : cfg.permissive = true → tl = [] → Free [';'] rest := by
  rintro hp rfl
  refine h hp ?_
  rw [e]
  simp

theorem parseOneof_go (hG : G.permissive = cfg.permissive) (hl : G.loose = false)
    {x : Oneof} {ts : List Tok} (hx : OneofToks G x ts) (hs : Shut cfg ts rest)
    (h : Ahead T l (words ts ++ rest)) :
    Sat H (fun r l' => bareOneof r = bareOneof x ∧ Ahead T l' rest) E (parseOneof cfg l) := by
  obtain ⟨hn, hd, is, cl, h1, h2, h3, rfl, _⟩ := hx
  obtain ⟨tl, e, h4⟩ := Close.split h3
  rw [words_append, words_append, h1, e] at h
  unfold parseOneof
  refine go_expect (w := c!"oneof") (by simpa using h) (.with_ _) rfl (tokIs_keyword rfl rfl rfl rfl)
    (fun l1 _ _ k1 => ?_)
  rw [sat_position]
  refine go_expect k1 .next rfl (tokIs_ident hn) (fun l2 _ e2 k2 => ?_)
  rw [sat_txt]
  refine go_expect k2 .next rfl tokIs_lcurly (fun l3 _ _ k3 => ?_)
  refine go_inline k3 (fun c l4 k4 => ?_)
  rw [sat_bound]
  refine Sat.bind (oneofLoop_go hG hl _ h2 k4 ?_) ?_
  · have := Ahead.bound (ws := words is) k4
    simpa [words] using this
  rintro ⟨fs, os⟩ l5 ⟨⟨e5, e6⟩, k5⟩
  refine Sat.bind (blockLastPos_go (by rw [← hG]; exact h4) (hs.close (by simp only [words_append, e]; rfl)) k5) ?_
  intro p l6 k6
  refine ⟨?_, k6⟩
  simp only [bareOneof, e2, e5, e6, List.map_nil, List.nil_append]

end

end Parser

end Verif
