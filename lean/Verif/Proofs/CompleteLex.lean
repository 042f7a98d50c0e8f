import Verif.Proofs.Ahead

/-!
# The lexer's parsers accept what the grammar describes: names and constants
-/

set_option backward.isDefEq.respectTransparency false
set_option backward.dsimp.instances true

namespace Verif
variable {T : Src}
open Spec Scanner Lexer
open M (bind_ok run_get)

theorem tokIs_dot : TokIs {} c!"." .dot := tokIs_punct rfl (by simp)

/-! ## Names -/

/-- The spellings of `{ "." ident }`. -/
def dotted (ds : List Str) : List Str := ds.flatMap (fun d => [c!".", d])

theorem dotted_length (ds : List Str) : ds.length ≤ (dotted ds).length := by
  induction ds with
  | nil => simp
  | cons d ds ih => simp [dotted] at ih ⊢; omega

/-- The text of `{ "." ident }`. -/
def dottedText (ds : List Str) : Str := ds.flatMap (fun d => c!"." ++ d)

theorem FullIdent.split {s : Str} {ws : List Str} (h : FullIdent s ws) :
    ∃ w ds, Word w ∧ (∀ d ∈ ds, Word d) ∧ s = w ++ dottedText ds ∧ ws = w :: dotted ds := by
  induction h with
  | one w hw => exact ⟨w, [], hw, by simp, by simp [dottedText], rfl⟩
  | more w s ws hw _ ih =>
    obtain ⟨w', ds, h1, h2, rfl, rfl⟩ := ih
    refine ⟨w, w' :: ds, hw, ?_, by simp [dottedText], by simp [dotted]⟩
    intro d hd
    rcases List.mem_cons.1 hd with rfl | hd
    · exact h1
    · exact h2 d hd

section
variable {H : Halt → Prop} {E : Err → Lexer → Prop} {l : Lexer} {rest : List Str}

theorem eof_test {α : Type} {Q : α → Lexer → Prop} {f : Bool → P α}
    (h : Sat H Q E (f (decide (l.token = .eof)) l)) : Sat H Q E ((Lexer.isEOF >>= f) l) := h

theorem readFullIdentLoop_go (hr : Free ['.'] rest) (n : Nat) : ∀ {ds : List Str} {acc : Str} {l : Lexer},
    (∀ d ∈ ds, Word d) → Ahead T l (dotted ds ++ rest) → ds.length < n →
    Sat H (fun r l' => r = acc ++ dottedText ds ∧ Ahead T l' rest) E
      (readFullIdentLoop n acc (nextSt {} l)) := by
  induction n with
  | zero => intro _ _ _ _ _ h; omega
  | succ n ih =>
    intro ds acc l hds h hn
    unfold readFullIdentLoop
    refine eof_test ?_
    cases ds with
    | nil =>
      cases rest with
      | nil =>
        obtain ⟨h1, _, h3⟩ := h.eof (m := {}) rfl
        refine sat_pos (by simpa using h1) ?_
        exact ⟨by simp [dottedText], h3⟩
      | cons w ws =>
        have h2 : (nextSt {} l).token ≠ .dot := h.ne_punct rfl rfl hr (by simp)
        by_cases h3 : (nextSt {} l).token = .eof
        · exfalso
          obtain ⟨e1, e3, _⟩ := eof_took h.good rfl h3
          have h4 := h.laid
          simp only [dotted, List.flatMap_nil, List.nil_append] at h4
          have := h.took e1 (h.quiet (m := {}) (free_nil _))
          have := this.length
          rw [e3] at this
          simp at this
        · refine sat_neg (by simpa using h3) ?_
          rw [sat_tok]
          refine sat_pos h2 ?_
          refine sat_unNext ?_
          exact ⟨by simp [dottedText], h.putBack {}⟩
    | cons d ds =>
      have hd := hds d (by simp)
      obtain ⟨h1, _, h3⟩ := Ahead.next (w := c!".") (ws := d :: (dotted ds ++ rest))
        (by simpa [dotted] using h) (m := {}) rfl tokIs_dot
      refine sat_neg (by simp [h1]) ?_
      rw [sat_tok]
      refine sat_neg (by simp [h1]) ?_
      refine sat_next h3.good ?_
      obtain ⟨h4, h5, h6⟩ := h3.next (m := {}) rfl (tokIs_ident hd)
      rw [sat_tok]
      refine sat_neg (by simp [h4]) ?_
      rw [sat_txt]
      refine sat_next h6.good ?_
      rw [h5]
      refine (ih (fun d hd => hds d (by simp [hd])) h6 (by simp at hn; omega)).mono ?_ (fun _ _ h => h)
      rintro r l' ⟨rfl, h7⟩
      exact ⟨by simp [dottedText], h7⟩

theorem dotted_bound {ds : List Str} (h : Ahead T l (dotted ds ++ rest)) :
    ds.length < (nextSt {} l).scanner.inp.length + 1 := by
  cases ds with
  | nil => simp
  | cons d ds =>
    obtain ⟨_, _, h3⟩ := Ahead.next (w := c!".") (ws := d :: (dotted ds ++ rest))
        (by simpa [dotted] using h) (m := {}) rfl tokIs_dot
    have := h3.length
    have e := dotted_length ds
    simp at this ⊢
    omega

theorem readFullIdent_go {s : Str} {ws : List Str} (hs : FullIdent s ws) (hr : Free ['.'] rest)
    (h : Ahead T l (ws ++ rest)) :
    Sat H (fun r l' => r.1 = s ∧ Ahead T l' rest) E (readFullIdent l) := by
  obtain ⟨w, ds, hw, hds, rfl, rfl⟩ := FullIdent.split hs
  obtain ⟨h1, h2, h3⟩ := Ahead.next (w := w) (ws := dotted ds ++ rest) h (m := {}) rfl (tokIs_ident hw)
  unfold readFullIdent
  refine sat_next h.good ?_
  rw [sat_tok]
  refine sat_neg (by simp [h1]) ?_
  rw [sat_position, sat_txt]
  refine sat_next h3.good ?_
  rw [sat_bound, h2]
  refine Sat.bind (readFullIdentLoop_go hr _ hds h3 (dotted_bound h3)) ?_
  rintro r l' ⟨rfl, h4⟩
  exact ⟨rfl, h4⟩

theorem readMessageTypeLoop_go (hr : Free ['.'] rest) (n : Nat) :
    ∀ {ds : List Str} {w : Str} {acc : Str} {l : Lexer}, Word w → (∀ d ∈ ds, Word d) →
    Ahead T l (w :: dotted ds ++ rest) → ds.length < n →
    Sat H (fun r l' => r = acc ++ w ++ dottedText ds ∧ Ahead T l' rest) E
      (readMessageTypeLoop n acc (nextSt {} l)) := by
  induction n with
  | zero => intro _ _ _ _ _ _ _ h; omega
  | succ n ih =>
    intro ds w acc l hw hds h hn
    obtain ⟨h1, h2, h3⟩ := Ahead.next (w := w) (ws := dotted ds ++ rest) h (m := {}) rfl (tokIs_ident hw)
    unfold readMessageTypeLoop
    refine eof_test ?_
    refine sat_neg (by simp [h1]) ?_
    rw [sat_tok]
    refine sat_neg (by simp [h1]) ?_
    rw [sat_txt]
    refine sat_next h3.good ?_
    rw [h2, sat_tok]
    cases ds with
    | nil =>
      have h4 : (nextSt {} (nextSt {} l)).token ≠ .dot := h3.ne_punct rfl rfl hr (by simp)
      refine sat_pos h4 ?_
      refine sat_unNext ?_
      exact ⟨by simp [dottedText], h3.putBack {}⟩
    | cons d ds =>
      have hd := hds d (by simp)
      obtain ⟨h4, h5, h6⟩ := Ahead.next (w := c!".") (ws := d :: (dotted ds ++ rest))
        (by simpa [dotted] using h3) (m := {}) rfl tokIs_dot
      refine sat_neg (by simp [h4]) ?_
      rw [sat_txt]
      refine sat_next h6.good ?_
      rw [h5]
      refine (ih (ds := ds) hd (fun d hd => hds d (by simp [hd])) (by simpa using h6)
        (by simp at hn; omega)).mono ?_ (fun _ _ h => h)
      rintro r l' ⟨rfl, h7⟩
      exact ⟨by simp [dottedText], h7⟩

theorem dotted_bound' {w : Str} {ds : List Str} (hw : Word w) (h : Ahead T l (w :: dotted ds ++ rest)) :
    ds.length < (nextSt {} l).scanner.inp.length + 1 := by
  obtain ⟨_, _, h3⟩ := Ahead.next (w := w) (ws := dotted ds ++ rest) h (m := {}) rfl (tokIs_ident hw)
  have := h3.length
  have e := dotted_length ds
  simp at this ⊢
  omega

theorem readMessageType_go {s : Str} {ws : List Str} (hs : MessageType s ws) (hr : Free ['.'] rest)
    (h : Ahead T l (ws ++ rest)) :
    Sat H (fun r l' => r.1 = s ∧ Ahead T l' rest) E (readMessageType l) := by
  unfold readMessageType
  refine sat_next h.good ?_
  rw [sat_position]
  cases hs with
  | plain s ws hs =>
    obtain ⟨w, ds, hw, hds, rfl, rfl⟩ := FullIdent.split hs
    obtain ⟨h1, h2, h3⟩ := Ahead.next (w := w) (ws := dotted ds ++ rest) h (m := {}) rfl (tokIs_ident hw)
    refine Sat.bind (Q := fun r l' => r = [] ∧ Ahead T l' (w :: dotted ds ++ rest)) ?_ ?_
    · unfold readLeadingDot
      rw [sat_tok]
      refine sat_neg (by simp [h1]) ?_
      refine sat_unNext ?_
      exact ⟨rfl, h.putBack {}⟩
    · rintro r l' ⟨rfl, h4⟩
      refine sat_next h4.good ?_
      rw [sat_bound]
      refine Sat.bind (readMessageTypeLoop_go hr _ hw hds h4 (dotted_bound' hw h4)) ?_
      rintro r l' ⟨rfl, h5⟩
      exact ⟨rfl, h5⟩
  | dot s ws hs =>
    obtain ⟨w, ds, hw, hds, rfl, rfl⟩ := FullIdent.split hs
    obtain ⟨h1, h2, h3⟩ := Ahead.next (w := c!".") (ws := w :: dotted ds ++ rest) h (m := {}) rfl tokIs_dot
    refine Sat.bind (Q := fun r l' => r = c!"." ∧ Ahead T l' (w :: dotted ds ++ rest)) ?_ ?_
    · unfold readLeadingDot
      rw [sat_tok]
      refine sat_pos h1 ?_
      exact ⟨h2, h3⟩
    · rintro r l' ⟨rfl, h4⟩
      refine sat_next h4.good ?_
      rw [sat_bound]
      refine Sat.bind (readMessageTypeLoop_go hr _ hw hds h4 (dotted_bound' hw h4)) ?_
      rintro r l' ⟨rfl, h5⟩
      exact ⟨by simp, h5⟩

/-! ## Constants that are not nested -/

/-- The constants that `ReadConstant` reads. -/
inductive Flat (permissive : Bool) : Str → List Str → Prop
  | name (s : Str) (ws : List Str) : FullIdent s ws →
      (∀ w ∈ ws.head?, w ≠ c!"true" ∧ w ≠ c!"false" ∧ w ≠ c!"inf" ∧ w ≠ c!"nan") → Flat permissive s ws
  | bool (w : Str) : Bool_ w → Flat permissive w [w]
  | number (w : Str) : Number w → Flat permissive w [w]
  | signed (s w : Str) : s = c!"-" ∨ s = c!"+" → Number w → Flat permissive (s ++ w) [s, w]
  | str (w : Str) : permissive = false → StrLit w → Flat permissive w [w]
  | strs (ws : List Str) : permissive = true → ws ≠ [] → (∀ w ∈ ws, StrLit w) →
      Flat permissive (joinStrings ws) ws

theorem mergeLoop_go {q : Char} (hr : Free ['\'', '"'] rest) (n : Nat) : ∀ {ws : List Str} {acc : Str} {l : Lexer},
    (∀ w ∈ ws, StrLit w) → Ahead T l (ws ++ rest) → ws.length < n →
    Sat H (fun r l' => r = acc ++ (ws.map (stripQuotes q)).flatten ∧
        ∃ l0, l' = nextSt .lit l0 ∧ Ahead T l0 rest) E
      (mergeLoop q n acc (nextSt .lit l)) := by
  induction n with
  | zero => intro _ _ _ _ _ h; omega
  | succ n ih =>
    intro ws acc l hws h hn
    unfold mergeLoop
    rw [sat_tok]
    cases ws with
    | nil =>
      have h1 : (nextSt .lit l).token ≠ .strLit := h.ne_str rfl hr
      refine sat_neg h1 ?_
      exact ⟨by simp, l, rfl, h⟩
    | cons w ws =>
      obtain ⟨h1, h2, h3⟩ := Ahead.next (w := w) (ws := ws ++ rest) h (m := .lit) rfl
        (tokIs_str rfl (hws w (by simp)))
      refine sat_pos h1 ?_
      rw [sat_txt]
      refine sat_nextWith h3.good ?_
      rw [h2]
      refine (ih (fun w hw => hws w (by simp [hw])) h3 (by simp at hn; omega)).mono ?_ (fun _ _ h => h)
      rintro r l' ⟨rfl, h7⟩
      exact ⟨by simp [stripQuotes, trim], h7⟩

theorem bool_word {w : Str} (h : Bool_ w) : Word w := by
  rcases h with rfl | rfl <;> exact .mk _ _ (by unfold WordStart; decide) (by unfold WordChar; decide)

theorem free_word_starts (m : Mode) {w : Str} {ws : List Str} (hw : Word w) : Free (starts m) (w :: ws) := by
  refine free_word hw (fun c hc => ?_)
  have key : ∀ c ∈ ['\'', '"'] ++ (decimals ++ ['.']), ¬ WordStart c := by unfold WordStart; decide
  refine key c ?_
  unfold starts at hc
  rcases List.mem_append.1 hc with hc | hc
  · split at hc
    · exact List.mem_append.2 (.inl hc)
    · simp at hc
  · split at hc
    · exact List.mem_append.2 (.inr hc)
    · simp at hc

theorem readConstant_go {p : Bool} {s : Str} {ws : List Str} (hs : Flat p s ws)
    (hr : Free ['.', '\'', '"'] rest) (hq : T.log ≠ none → Free (starts .lit) rest) (h : Ahead T l (ws ++ rest)) :
    Sat H (fun r l' => r.1 = s ∧ Ahead T l' rest) E (readConstant p l) := by
  have hr1 : Free ['.'] rest := hr.mono (by simp)
  have hr2 : Free ['\'', '"'] rest := hr.mono (by simp)
  unfold readConstant
  refine sat_nextWith h.good ?_
  rw [sat_position, sat_txt, sat_tok]
  cases hs with
  | name s ws hs hn =>
    obtain ⟨w, ds, hw, hds, rfl, rfl⟩ := FullIdent.split hs
    obtain ⟨h1, h2, h3⟩ := Ahead.next (w := w) (ws := dotted ds ++ rest) h (m := .lit) rfl (tokIs_word _ hw)
    obtain ⟨n1, n2, n3, n4⟩ := hn w rfl
    have e : wordToken .lit w = .ident := by
      simp [wordToken, Mode.lit, isBoolLit, isFloatLitKeyword, n1, n2, n3, n4]
    rw [e] at h1
    refine sat_neg (by simp [h1]) ?_
    refine sat_neg (by simp [h1]) ?_
    refine sat_pos h1 ?_
    refine sat_unNext ?_
    exact readFullIdent_go hs hr1 (h.putBackOf (fun _ => free_word_starts _ hw))
  | bool w hw =>
    obtain ⟨h1, h2, h3⟩ := Ahead.next (w := s) (ws := rest) h (m := .lit) rfl (tokIs_word _ (bool_word hw))
    have e : wordToken .lit s = .boolLit := by
      rcases hw with rfl | rfl <;> rfl
    rw [e] at h1
    refine sat_neg (by simp [h1]) ?_
    refine sat_pos h1 ?_
    exact ⟨h2, h3⟩
  | number w hw =>
    obtain ⟨t, ht, hk⟩ := tokIs_number (m := .lit) rfl hw
    obtain ⟨h1, h2, h3⟩ := Ahead.next (w := s) (ws := rest) h (m := .lit) rfl hk
    refine sat_neg (by rcases ht with rfl | rfl <;> simp [h1]) ?_
    refine sat_neg (by rcases ht with rfl | rfl <;> simp [h1]) ?_
    refine sat_neg (by rcases ht with rfl | rfl <;> simp [h1]) ?_
    refine sat_pos (by rw [h1]; exact ht) ?_
    exact ⟨h2, h3⟩
  | signed s w hs hw =>
    obtain ⟨t, ht, hk⟩ := tokIs_number (m := .lit) rfl hw
    have hk' : ∃ t', (t' = .minus ∨ t' = .illegal) ∧ TokIs .lit s t' := by
      rcases hs with rfl | rfl
      · exact ⟨_, .inl rfl, tokIs_punct rfl (by simp)⟩
      · exact ⟨_, .inr rfl, tokIs_plus⟩
    obtain ⟨t', ht', hk'⟩ := hk'
    obtain ⟨h1, h2, h3⟩ := Ahead.next (w := s) (ws := w :: rest) h (m := .lit) rfl hk'
    obtain ⟨h4, h5, h6⟩ := h3.next (m := .lit) rfl hk
    refine sat_neg (by rcases ht' with rfl | rfl <;> simp [h1]) ?_
    refine sat_neg (by rcases ht' with rfl | rfl <;> simp [h1]) ?_
    refine sat_neg (by rcases ht' with rfl | rfl <;> simp [h1]) ?_
    refine sat_neg (by rcases ht' with rfl | rfl <;> simp [h1]) ?_
    refine sat_pos (by rw [h2]; exact hs) ?_
    refine sat_nextWith h3.good ?_
    rw [sat_tok]
    refine sat_pos (by rw [h4]; exact ht) ?_
    rw [sat_txt, h2, h5]
    exact ⟨rfl, h6⟩
  | str w hp hw =>
    obtain ⟨h1, h2, h3⟩ := Ahead.next (w := s) (ws := rest) h (m := .lit) rfl (tokIs_str rfl hw)
    refine sat_pos h1 ?_
    refine sat_neg (by simp [hp]) ?_
    exact ⟨h2, h3⟩
  | strs ws hp hne hws =>
    obtain ⟨w, ws', rfl⟩ := List.exists_cons_of_ne_nil hne
    obtain ⟨h1, h2, h3⟩ := Ahead.next (w := w) (ws := ws' ++ rest) h (m := .lit) rfl
      (tokIs_str rfl (hws w (by simp)))
    refine sat_pos h1 ?_
    refine sat_pos hp ?_
    refine Sat.bind (Q := fun r l' => r = joinStrings (w :: ws') ∧ Ahead T l' rest) ?_ ?_
    · unfold mergeMultilineStrLit
      rw [sat_txt, sat_bound, h2]
      have hb := h3.length
      refine Sat.bind (mergeLoop_go hr2 _ hws h (by simp at hb ⊢; omega)) ?_
      rintro r l' ⟨rfl, l0, rfl, h7⟩
      refine sat_unNext ?_
      exact ⟨by simp [joinStrings, mergeQuote], h7.putBackOf hq⟩
    · rintro r l' ⟨rfl, h4⟩
      exact ⟨rfl, h4⟩

end

end Verif
