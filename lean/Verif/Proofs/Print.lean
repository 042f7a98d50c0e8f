import Verif.Props.Complete
import Verif.Spec.Print

/-!
# Printing a tree and reading it back: the printed pieces are layouts of the same statements
-/

set_option backward.isDefEq.respectTransparency false
set_option backward.dsimp.instances true

namespace Verif.Spec
open Verif Props

/-! ## Layouts without comments -/

/-- A layout of spellings without NULs, with nothing but white space between them. -/
inductive Spread : List Str → Str → Prop
  | nil (g : Str) : (∀ x ∈ g, White x) → Spread [] g
  | cons (g w : Str) (ws : List Str) (c : Str) : (∀ x ∈ g, White x) → Apart w c → NulFree w → Spread ws c →
      Spread (w :: ws) (g ++ (w ++ c))

theorem gap_white {rest : Str} : ∀ {g : Str}, (∀ x ∈ g, White x) → ∃ cs, Gap true rest g cs := by
  intro g
  induction g with
  | nil => exact fun _ => ⟨_, .nil⟩
  | cons c g ih =>
    intro h
    obtain ⟨cs, hg⟩ := ih (fun x hx => h x (by simp [hx]))
    exact ⟨_, .space c g cs (h c (by simp)) hg⟩

theorem Spread.laid {ws : List Str} {t : Str} (h : Spread ws t) : Laid ws t := by
  induction h with
  | nil g hg =>
    obtain ⟨cs, hg⟩ := gap_white (rest := []) hg
    exact .nil g cs hg
  | cons g w ws c hg ha _ _ ih =>
    obtain ⟨cs, hg⟩ := gap_white (rest := w ++ c) hg
    exact .cons g cs w ws c hg ha ih

theorem white_nul {c : Char} (h : White c) : c ≠ eof := by
  rintro rfl
  revert h
  unfold White
  decide

theorem Spread.nulFree {ws : List Str} {t : Str} (h : Spread ws t) : NulFree t := by
  induction h with
  | nil g hg => exact fun c hc => white_nul (hg c hc)
  | cons g w ws c hg _ hw _ ih =>
    intro x hx
    rcases List.mem_append.1 hx with hx | hx
    · exact white_nul (hg x hx)
    · rcases List.mem_append.1 hx with hx | hx
      · exact hw x hx
      · exact ih x hx

theorem slash_black : ¬ White '/' := by unfold White; decide

theorem Spread.untrailed_here {ws : List Str} {t : Str} (h : Spread ws t) : ¬ Trailed t := by
  rintro ⟨g, raw, text, rest, e, hg, hc⟩
  obtain ⟨r, hr⟩ : ∃ r, raw = '/' :: r := by cases hc <;> exact ⟨_, rfl⟩
  cases h with
  | nil _ h =>
    exact slash_black (h '/' (by rw [e, hr]; simp))
  | cons g' w ws c hg' ha _ _ =>
    have hs := ha.solid
    have key : ∀ (g g' : Str), (∀ x ∈ g, White x) → (∀ x ∈ g', White x) → g' ++ (w ++ c) = g ++ (raw ++ rest) →
        w ++ c = raw ++ rest := by
      intro g
      induction g with
      | nil =>
        intro g' _ h2 e
        cases g' with
        | nil => exact e
        | cons x g' =>
          rw [hr] at e
          simp only [List.cons_append, List.nil_append, List.cons.injEq] at e
          exact absurd (e.1 ▸ h2 x (by simp)) slash_black
      | cons y g ih =>
        intro g' h1 h2 e
        cases g' with
        | nil =>
          refine absurd (h1 y (by simp)) (hs.1 y ?_)
          rw [List.nil_append] at e
          rw [e]
          rfl
        | cons x g' =>
          simp only [List.cons_append, List.cons.injEq] at e
          exact ih g' (fun x hx => h1 x (by simp [hx])) (fun x hx => h2 x (by simp [hx])) e.2
    exact hs.2 raw text rest (key g g' (fun x hx => (hg x hx).1) hg' e) hc

theorem Spread.after {ws : List Str} {t : Str} (h : Spread ws t) (n : Nat) :
    ∃ c, After ws t (ws.drop n) c ∧ Spread (ws.drop n) c := by
  induction h generalizing n with
  | nil g hg => exact ⟨g, by simpa using .refl _ _, by simpa using .nil g hg⟩
  | cons g w ws c hg ha hw h ih =>
    cases n with
    | zero => exact ⟨_, .refl _ _, .cons g w ws c hg ha hw h⟩
    | succ n =>
      obtain ⟨c', h1, h2⟩ := ih n
      obtain ⟨cs, hg⟩ := gap_white (rest := w ++ c) hg
      exact ⟨c', .step g cs w ws c hg ha h1, h2⟩

theorem Spread.untrailed {ws us : List Str} {t c : Str} (h : Spread ws t) (ha : After ws t us c) : ¬ Trailed c := by
  obtain ⟨n, rfl⟩ := after_drop ha
  obtain ⟨c', h1, h2⟩ := h.after n
  rw [Parser.after_unique ha h1]
  exact h2.untrailed_here

/-! ## Pieces that consist of spellings -/

/-- No word goes on in the text. -/
def WSep (t : Str) : Prop := ∀ d ∈ t.head?, ¬ WordChar d

/-- No word or number goes on in the text. -/
def Sep (t : Str) : Prop := ∀ d ∈ t.head?, ¬ WordChar d ∧ d ≠ '.'

def Any (_ : Str) : Prop := True

theorem Sep.w {t : Str} (h : Sep t) : WSep t := fun d hd => (h d hd).1

/-- The text `s` consists of the spellings `ws`, before any text with the property `E`. -/
def Splits (E : Str → Prop) (ws : List Str) (s : Str) : Prop :=
  ∀ vs t, E t → Spread vs t → Spread (ws ++ vs) (s ++ t)

theorem Splits.mono {E E' : Str → Prop} {ws : List Str} {s : Str} (h : Splits E ws s) (he : ∀ t, E' t → E t) :
    Splits E' ws s := fun vs t ht hs => h vs t (he t ht) hs

theorem Splits.comp {E E' : Str → Prop} {ws ws' : List Str} {s s' : Str} (h : Splits E ws s) (h' : Splits E' ws' s')
    (he : ∀ t, E' t → E (s' ++ t)) : Splits E' (ws ++ ws') (s ++ s') := by
  intro vs t ht hs
  rw [List.append_assoc, List.append_assoc]
  exact h _ _ (he t ht) (h' vs t ht hs)

theorem Splits.one {E : Str → Prop} {w : Str} (ha : ∀ t, E t → Apart w t) (hn : NulFree w) : Splits E [w] w :=
  fun vs t ht hs => .cons [] w vs t (by simp) (ha t ht) hn hs

theorem standing_any {w : Str} (h : Standing w) (hw : ¬ Word w) (hn : ¬ Number w) (x : Str) : Apart w x := by
  obtain ⟨⟨c, w', rfl, h1, h2⟩, h3⟩ := h
  refine ⟨by simp, ⟨?_, ?_⟩, by simpa using h2, fun h => absurd h (by simp [hw, hn]), fun h => absurd h hn, h3⟩
  · intro d hd
    simp only [List.cons_append, List.head?_cons, Option.some.injEq] at hd
    exact hd ▸ h1
  · intro raw text rest e hc
    have : raw.head? = some '/' := by cases hc <;> rfl
    cases raw with
    | nil => simp at this
    | cons a raw =>
      simp only [List.cons_append, List.cons.injEq] at e
      simp only [List.head?_cons, Option.some.injEq] at this
      exact h2 (e.1.trans this)

/-- A sign of the grammar. -/
def signs : Str := c!"=;,.:()[]{}<>-+'\""

theorem number_head {w : Str} (h : Number w) : ∃ c w', w = c :: w' ∧ (c ∈ decimals ∨ c = '.' ∨ c = 'i' ∨ c = 'n') ∧ (w' = [] → c ≠ '.') := by
  rcases h with h | h
  · cases h with
    | decimal c w h => exact ⟨c, w, rfl, .inl h, fun _ e => by subst e; revert h; decide⟩
    | octal w => exact ⟨_, _, rfl, .inl (by decide), fun _ => by decide⟩
    | hex x w => exact ⟨_, _, rfl, .inl (by decide), fun _ => by decide⟩
  · cases h with
    | full d f e h =>
      obtain ⟨h1, h2⟩ := h
      cases d with
      | nil => exact absurd rfl h1
      | cons c d => exact ⟨c, _, rfl, .inl (h2 c (by simp)), fun h => by simp at h⟩
    | exp d e h h' =>
      obtain ⟨h1, h2⟩ := h
      cases d with
      | nil => exact absurd rfl h1
      | cons c d =>
        refine ⟨c, _, rfl, .inl (h2 c (by simp)), fun _ e => ?_⟩
        subst e
        exact absurd (h2 '.' (by simp)) (by decide)
    | frac f e h =>
      obtain ⟨h1, _⟩ := h
      refine ⟨'.', f ++ e, rfl, .inr (.inl rfl), fun h => ?_⟩
      exact absurd (List.append_eq_nil_iff.1 h).1 h1
    | inf => exact ⟨_, _, rfl, .inr (.inr (.inl rfl)), fun h => by simp at h⟩
    | nan => exact ⟨_, _, rfl, .inr (.inr (.inr rfl)), fun h => by simp at h⟩

theorem not_number_sign {c : Char} (h : c ∈ signs) : ¬ Number [c] := by
  intro hn
  obtain ⟨d, w', e, h1, h2⟩ := number_head hn
  simp only [List.cons.injEq] at e
  obtain ⟨rfl, rfl⟩ := e
  have h3 := h2 rfl
  rcases h1 with h1 | h1 | h1 | h1
  · revert h h1; clear h2 hn h3
    intro h h1
    have : ∀ c ∈ signs, c ∉ decimals := by decide
    exact this c h h1
  · exact h3 h1
  · subst h1; revert h; decide
  · subst h1; revert h; decide

theorem sign_splits {c : Char} (h : c ∈ signs) : Splits Any [[c]] [c] := by
  have h1 : ∀ c ∈ signs, c.toNat ∉ whiteSpace ∧ c ≠ '/' ∧ c ≠ eof ∧ ¬ (c ∈ letters ∨ c = '_') := by decide
  obtain ⟨h1, h2, h3, h4⟩ := h1 c h
  refine Splits.one (fun t _ => standing_any ⟨⟨c, [], rfl, h1, h2⟩, ?_⟩ ?_ (not_number_sign h) t) ?_
  · exact fun hf => absurd (.inr hf) (not_number_sign h)
  · rintro ⟨_, _, h5, _⟩
    exact h4 h5
  · intro x hx
    simp only [List.mem_singleton] at hx
    exact hx ▸ h3

theorem word_nul {w : Str} (h : Word w) : NulFree w := by
  obtain ⟨c, w, h1, h2⟩ := h
  have k1 : eof ∉ letters := by decide
  have k2 : eof ∉ decimals := by decide
  have k3 : eof ≠ '_' := by decide
  rintro x hx rfl
  rcases List.mem_cons.1 hx with rfl | hx
  · rcases h1 with h1 | h1
    · exact k1 h1
    · exact k3 h1
  · rcases h2 _ hx with h | h | h
    · exact k1 h
    · exact k2 h
    · exact k3 h

theorem letter_facts : ∀ c ∈ letters, c.toNat ∉ whiteSpace ∧ c ≠ '/' ∧ c ≠ '0' ∧ c ≠ '{' := by decide +kernel
theorem decimal_facts : ∀ c ∈ decimals, c.toNat ∉ whiteSpace ∧ c ≠ '/' := by decide +kernel

theorem wordStart_facts {c : Char} (h : WordStart c) : ¬ White c ∧ c ≠ '/' ∧ c ≠ '0' ∧ c ≠ '{' := by
  rcases h with h | rfl
  · exact letter_facts c h
  · unfold White; decide

theorem word_standing {w : Str} (h : Word w) : Standing w := by
  obtain ⟨c, w, h1, _⟩ := h
  obtain ⟨h2, h3, h4, _⟩ := wordStart_facts h1
  refine ⟨⟨c, w, rfl, h2, h3⟩, fun _ => ?_⟩
  rintro ⟨d, w', e, _⟩
  simp only [List.cons.injEq] at e
  exact h4 e.1

theorem word_splits {w : Str} (h : Word w) : Splits WSep [w] w := by
  refine Splits.one (fun t ht => ?_) (word_nul h)
  have hs := word_standing h
  obtain ⟨⟨c, w', rfl, h1, h2⟩, h3⟩ := hs
  refine ⟨by simp, ⟨?_, ?_⟩, by simpa using h2, fun _ d hd => ht d hd, fun _ hn => absurd h hn, h3⟩
  · intro d hd
    simp only [List.cons_append, List.head?_cons, Option.some.injEq] at hd
    exact hd ▸ h1
  · intro raw text rest e hc
    have : raw.head? = some '/' := by cases hc <;> rfl
    cases raw with
    | nil => simp at this
    | cons a raw =>
      simp only [List.cons_append, List.cons.injEq] at e
      simp only [List.head?_cons, Option.some.injEq] at this
      exact h2 (e.1.trans this)

theorem standing_splits {w : Str} (h : Standing w) (hn : NulFree w) : Splits Sep [w] w :=
  Splits.one (fun _ ht => h.apart ht) hn

theorem number_standing {w : Str} (h : Number w) (hz : FloatLit w → ¬ LeadingZero w) : Standing w := by
  obtain ⟨c, w', rfl, h1, _⟩ := number_head h
  refine ⟨⟨c, w', rfl, ?_⟩, hz⟩
  rcases h1 with h1 | rfl | rfl | rfl
  · exact decimal_facts c h1
  all_goals (unfold White; decide)

theorem strLit_standing {w : Str} (h : StrLit w) (hz : FloatLit w → ¬ LeadingZero w) : Standing w := by
  obtain ⟨q, b, hq, _, rfl⟩ := h
  refine ⟨⟨q, _, rfl, ?_⟩, hz⟩
  rcases hq with rfl | rfl <;> (unfold White; decide)

/-! ## Names -/

theorem fullIdent_splits {s : Str} {ws : List Str} (h : FullIdent s ws) : Splits WSep ws s := by
  induction h with
  | one w h => exact word_splits h
  | more w s ws h _ ih =>
    have h1 := (word_splits h).comp (sign_splits (c := '.') (by decide)) (fun t _ d hd => by
      simp only [List.cons_append, List.nil_append, List.head?_cons, Option.mem_some_iff] at hd
      subst hd; unfold WordChar; decide)
    exact h1.comp ih (fun _ _ => trivial)

theorem messageType_splits {s : Str} {ws : List Str} (h : MessageType s ws) : Splits WSep ws s := by
  cases h with
  | plain s ws h => exact fullIdent_splits h
  | dot s ws h => exact (sign_splits (c := '.') (by decide)).comp (fullIdent_splits h) (fun _ _ => trivial)

/-- A test for words. -/
def isWord : Str → Bool
  | [] => false
  | c :: w => decide ((c ∈ letters ∨ c = '_') ∧ ∀ d ∈ w, d ∈ letters ∨ d ∈ decimals ∨ d = '_')

theorem isWord_word {s : Str} (h : isWord s = true) : Word s := by
  cases s with
  | nil => cases h
  | cons c w => exact word_of (of_decide_eq_true h)

theorem scalar_word {s : Str} (h : s ∈ scalars) : Word s := by
  have key : ∀ s ∈ scalars, isWord s = true := by decide +kernel
  exact isWord_word (key s h)

theorem keyType_word {s : Str} (h : s ∈ keyTypes) : Word s := by
  have key : ∀ s ∈ keyTypes, isWord s = true := by decide +kernel
  exact isWord_word (key s h)

theorem typeName_splits {s : Str} {ws : List Str} (h : TypeName s ws) : Splits WSep ws s := by
  cases h with
  | scalar h => exact word_splits (scalar_word h)
  | named _ h _ => exact messageType_splits h

theorem wsep_sign {c : Char} (h : c ∈ signs) (s t : Str) : WSep (c :: s ++ t) := by
  intro d hd
  simp only [List.cons_append, List.head?_cons, Option.mem_some_iff] at hd
  subst hd
  have : ∀ c ∈ signs, ¬ (c ∈ letters ∨ c ∈ decimals ∨ c = '_') := by decide
  exact this c h

theorem sep_sign {c : Char} (h : c ∈ signs) (h' : c ≠ '.') (s t : Str) : Sep (c :: s ++ t) := by
  intro d hd
  refine ⟨wsep_sign h s t d hd, ?_⟩
  simp only [List.cons_append, List.head?_cons, Option.mem_some_iff] at hd
  exact hd ▸ h'

theorem namePart_splits {G : Gram} {s : Str} {ws : List Str} (h : NamePart G s ws) : Splits WSep ws s := by
  cases h with
  | ident w h => exact word_splits h
  | paren s ws h =>
    have h1 := (sign_splits (c := '(') (by decide)).comp (fullIdent_splits h) (fun _ _ => trivial)
    exact (h1.comp (sign_splits (c := ')') (by decide)) (fun t _ => wsep_sign (by decide) [] t)).mono (fun _ _ => trivial)
  | dotted s ws _ h =>
    have h0 := (sign_splits (c := '(') (by decide)).comp (sign_splits (c := '.') (by decide)) (fun _ _ => trivial)
    have h1 := h0.comp (fullIdent_splits h) (fun _ _ => trivial)
    exact (h1.comp (sign_splits (c := ')') (by decide)) (fun t _ => wsep_sign (by decide) [] t)).mono (fun _ _ => trivial)

theorem optionName_splits {G : Gram} {s : Str} {ws : List Str} (h : OptionName G s ws) : Splits WSep ws s := by
  induction h with
  | one s ws h => exact namePart_splits h
  | more s ws s' ws' _ h ih =>
    have h1 := ih.comp (sign_splits (c := '.') (by decide)) (fun t _ => wsep_sign (by decide) [] t)
    have := h1.comp (namePart_splits h) (fun _ _ => trivial)
    rw [List.append_assoc] at this
    exact this

/-- The grammar without what the code accepts beyond it. -/
def Gram.strict (G : Gram) : Gram := ⟨G.permissive, false, false⟩

theorem NamePart.strict {G : Gram} {s : Str} {ws : List Str} (h : NamePart G s ws) : NamePart G.strict s ws := by
  cases h with
  | ident _ h => exact .ident _ h
  | paren s ws h => exact .paren s ws h
  | dotted s ws h h' => exact .dotted s ws h h'

theorem OptionName.strict {G : Gram} {s : Str} {ws : List Str} (h : OptionName G s ws) : OptionName G.strict s ws := by
  induction h with
  | one s ws h => exact .one s ws h.strict
  | more s ws s' ws' _ h ih => exact .more s ws s' ws' ih h.strict

/-! ## Spellings that can be printed -/

/-- What is asked of the spellings of a file. -/
structure Tame (G : Gram) (ws : List Str) : Prop where
  merge : G.permissive = true → Mergeable ws
  zero : ∀ w ∈ ws, FloatLit w → ¬ LeadingZero w
  nul : ∀ w ∈ ws, NulFree w

theorem Mergeable.infix {us ws : List Str} (h : Mergeable ws) (hi : us <:+: ws) : Mergeable us :=
  ⟨fun w hw => h.tail w (hi.subset hw), fun v w hv => h.alike v w (hv.trans hi)⟩

theorem Tame.infix {G : Gram} {us ws : List Str} (h : Tame G ws) (hi : us <:+: ws) : Tame G us :=
  ⟨fun hp => (h.merge hp).infix hi, fun w hw => h.zero w (hi.subset hw), fun w hw => h.nul w (hi.subset hw)⟩

theorem Tame.left {G : Gram} {us ws : List Str} (h : Tame G (us ++ ws)) : Tame G us := h.infix ⟨[], ws, rfl⟩
theorem Tame.right {G : Gram} {us ws : List Str} (h : Tame G (us ++ ws)) : Tame G ws :=
  h.infix ⟨us, [], by simp⟩
theorem Tame.tail {G : Gram} {w : Str} {ws : List Str} (h : Tame G (w :: ws)) : Tame G ws :=
  h.infix ⟨[w], [], by simp⟩

theorem Tame.number {G : Gram} {ws : List Str} (h : Tame G ws) {w : Str} (hw : w ∈ ws) (hn : Number w) :
    Splits Sep [w] w := standing_splits (number_standing hn (h.zero w hw)) (h.nul w hw)

theorem Tame.str {G : Gram} {ws : List Str} (h : Tame G ws) {w : Str} (hw : w ∈ ws) (hn : StrLit w) :
    Splits Sep [w] w := standing_splits (strLit_standing hn (h.zero w hw)) (h.nul w hw)

/-! ## Strings -/

theorem LooseValues.append {q : Char} {a b : Str} (ha : LooseValues q a) (hb : LooseValues q b) :
    LooseValues q (a ++ b) := by
  induction ha with
  | nil => exact hb
  | plain c w h1 h2 h3 _ ih => exact .plain c _ h1 h2 h3 ih
  | escape c w h1 _ ih => exact .escape c _ h1 ih
  | stray w h1 h2 _ ih =>
    refine .stray _ ?_ (by simp [h2]) ih
    cases w with
    | nil => exact absurd rfl h2
    | cons d w => exact h1

theorem LooseValues.flatten {q : Char} {bs : List Str} (h : ∀ b ∈ bs, LooseValues q b) : LooseValues q bs.flatten := by
  induction bs with
  | nil => exact .nil
  | cons b bs ih =>
    rw [List.flatten_cons]
    exact (h b (by simp)).append (ih (fun b hb => h b (by simp [hb])))

theorem flatten_last {q : Char} {bs : List Str} (h : ∀ b ∈ bs, b.getLast? ≠ some q) : bs.flatten.getLast? ≠ some q := by
  induction bs with
  | nil => simp
  | cons b bs ih =>
    rw [List.flatten_cons, List.getLast?_append]
    cases hb : bs.flatten.getLast? with
    | none => simpa using h b (by simp)
    | some c => simpa [hb] using ih (fun b hb => h b (by simp [hb]))

theorem alike_heads {ws : List Str} (hm : Mergeable ws) (hs : ∀ w ∈ ws, StrLit w) {w : Str} (hw : w ∈ ws) :
    w.head? = (ws.headD []).head? := by
  induction ws with
  | nil => cases hw
  | cons v ws ih =>
    rcases List.mem_cons.1 hw with rfl | hw
    · rfl
    · have h1 := ih (hm.infix ⟨[v], [], by simp⟩) (fun w hw => hs w (by simp [hw])) hw
      cases ws with
      | nil => cases hw
      | cons u ws =>
        have := hm.alike v u ⟨[], ws, by simp⟩ (hs v (by simp)) (hs u (by simp))
        rw [h1]
        exact this.symm

/-- Merging literals that can be merged gives a literal, which is left alone when it is merged again. -/
theorem join_lit {ws : List Str} (hne : ws ≠ []) (hs : ∀ w ∈ ws, StrLit w) (hm : Mergeable ws)
    (hn : ∀ w ∈ ws, NulFree w) :
    StrLit (joinStrings ws) ∧ joinStrings [joinStrings ws] = joinStrings ws ∧ NulFree (joinStrings ws) := by
  obtain ⟨w0, ws0, rfl⟩ := List.exists_cons_of_ne_nil hne
  obtain ⟨q, b0, hq, _, e0⟩ := hs w0 (by simp)
  have key : ∀ w ∈ w0 :: ws0, ∃ b, w = q :: b ++ [q] ∧ LooseValues q b ∧ b.getLast? ≠ some q := by
    intro w hw
    have h1 := alike_heads hm hs hw
    obtain ⟨q', b, _, h2, e⟩ := hs w hw
    have : q' = q := by
      rw [e0, e] at h1
      simpa using h1
    subst this
    exact ⟨b, e, h2, hm.tail w hw (hs w hw) q' b e⟩
  obtain ⟨bs, e, h1⟩ : ∃ bs : List Str, w0 :: ws0 = bs.map (fun b => q :: b ++ [q]) ∧
      ∀ b ∈ bs, LooseValues q b ∧ b.getLast? ≠ some q := by
    clear hne hs hm hn e0
    generalize w0 :: ws0 = ws at key
    induction ws with
    | nil => exact ⟨[], rfl, by simp⟩
    | cons w ws ih =>
      obtain ⟨bs, e, h1⟩ := ih (fun w hw => key w (by simp [hw]))
      obtain ⟨b, e', h2⟩ := key w (by simp)
      exact ⟨b :: bs, by rw [e, e']; rfl, by simpa using ⟨h2, h1⟩⟩
  have strip : ∀ b, LooseValues q b → b.getLast? ≠ some q → stripQuotes q (q :: b ++ [q]) = b :=
    fun b h h' => stripQuotes_plain (looseValues_head hq h) h'
  have hqq : (if ((w0 :: ws0).headD []).head? = some '"' then '"' else '\'') = q := by
    rw [e0]
    rcases hq with rfl | rfl <;> simp
  have hj : joinStrings (w0 :: ws0) = q :: bs.flatten ++ [q] := by
    unfold joinStrings
    simp only [hqq]
    rw [e, List.map_map]
    have : bs.map (stripQuotes q ∘ fun b => q :: b ++ [q]) = bs := by
      conv => rhs; rw [← List.map_id bs]
      exact List.map_congr_left (fun b hb => strip b (h1 b hb).1 (h1 b hb).2)
    rw [this]
    simp
  have hl : LooseValues q bs.flatten := .flatten fun b hb => (h1 b hb).1
  have ht : bs.flatten.getLast? ≠ some q := flatten_last fun b hb => (h1 b hb).2
  rw [hj]
  refine ⟨⟨q, _, hq, hl, rfl⟩, ?_, ?_⟩
  · unfold joinStrings
    have : (if (([q :: bs.flatten ++ [q]] : List Str).headD []).head? = some '"' then '"' else '\'') = q := by
      rcases hq with rfl | rfl <;> simp
    simp only [this, List.map_cons, List.map_nil, strip _ hl ht]
    simp
  · have hq0 : q ≠ eof := by rcases hq with rfl | rfl <;> decide
    intro c hc
    simp only [List.cons_append, List.mem_cons, List.mem_append, List.mem_flatten, List.not_mem_nil, or_false] at hc
    rcases hc with rfl | ⟨b, hb, hc⟩ | rfl
    · exact hq0
    · refine hn (q :: b ++ [q]) (by rw [e]; exact List.mem_map.2 ⟨b, hb, rfl⟩) c (by simp [hc])
    · exact hq0

/-! ## Constants -/

theorem fullIdent_head {s : Str} {ws : List Str} (h : FullIdent s ws) : ∃ w ws', ws = w :: ws' ∧ Word w := by
  cases h with
  | one w h => exact ⟨_, _, rfl, h⟩
  | more w s ws h => exact ⟨_, _, rfl, h⟩

theorem word_not_brace {w : Str} (h : Word w) : w ≠ c!"{" := by
  obtain ⟨c, w, h, _⟩ := h
  intro e
  simp only [List.cons.injEq] at e
  exact (wordStart_facts h).2.2.2 e.1

theorem number_not_brace {w : Str} (h : Number w) : w ≠ c!"{" := by
  rintro rfl
  exact not_number_sign (c := '{') (by decide) h

theorem strLit_not_brace {w : Str} (h : StrLit w) : w ≠ c!"{" := by
  obtain ⟨q, b, hq, _, rfl⟩ := h
  intro e
  rcases hq with rfl | rfl <;> simp at e

theorem Spread.white {ws : List Str} {t : Str} {c : Char} (hc : White c) (h : Spread ws t) : Spread ws (c :: t) := by
  cases h with
  | nil g hg => exact .nil (c :: t) (by simpa [hc] using hg)
  | cons g w ws x hg ha hn h => exact .cons (c :: g) w ws x (by simpa [hc] using hg) ha hn h

theorem Splits.white {E : Str → Prop} {ws : List Str} {s : Str} {c : Char} (hc : White c) (h : Splits E ws s) :
    Splits E ws (c :: s) := fun vs t ht hs => (h vs t ht hs).white hc

/-- The text of a constant consists of the spellings of the same constant. -/
theorem constant_print {G : Gram} {s : Str} {ws : List Str} (h : Constant G s ws) :
    Tame G ws → ∃ ws', Constant G.strict s ws' ∧ Splits Sep ws' s ∧ (ws'.head? = some c!"{" ↔ ws.head? = some c!"{") ∧
      (ws.head? = some c!"{" → s.head? = some '{') := by
  have sg : ∀ c : Char, c ∈ signs → Splits Any [[c]] [c] := fun c h => sign_splits h
  have white : White '\n' := by unfold White; decide
  have nb : ∀ {w : Str} {ws : List Str}, w ≠ c!"{" → ¬ (w :: ws).head? = some c!"{" := fun h => by simpa using h
  refine Constant.rec
    (motive_1 := fun s ws _ => Tame G ws → ∃ ws', Constant G.strict s ws' ∧ Splits Sep ws' s ∧
      (ws'.head? = some c!"{" ↔ ws.head? = some c!"{") ∧ (ws.head? = some c!"{" → s.head? = some '{'))
    (motive_2 := fun s ws _ => Tame G ws → ∃ ws', ConstantList G.strict s ws' ∧ Splits Sep ws' s)
    (motive_3 := fun b s ws _ => Tame G ws → ∃ ws', Entry G.strict b s ws' ∧ Splits Sep ws' s)
    (motive_4 := fun s ws _ => Tame G ws → ∃ ws', Entries G.strict s ws' ∧ Splits Any ws' s)
    ?_ ?_ ?_ ?_ ?_ ?_ ?_ ?_ ?_ ?_ ?_ ?_ ?_ ?_ ?_ ?_ ?_ ?_ ?_ h
  · intro s ws a b _
    obtain ⟨w, ws', e, hw⟩ := fullIdent_head a
    refine ⟨ws, .name s ws a b, (fullIdent_splits a).mono (fun _ h => h.w), Iff.rfl, fun h => ?_⟩
    rw [e] at h
    exact absurd h (nb (word_not_brace hw))
  · intro w a _
    have hw : Word w := by rcases a with rfl | rfl <;> exact isWord_word (by decide +kernel)
    exact ⟨[w], .bool w a, (word_splits hw).mono (fun _ h => h.w), Iff.rfl, fun h => absurd h (nb (word_not_brace hw))⟩
  · intro w a ht
    exact ⟨[w], .number w a, ht.number (by simp) a, Iff.rfl, fun h => absurd h (nb (number_not_brace a))⟩
  · intro s w a b ht
    have h1 : Splits Sep [w] w := ht.number (by simp) b
    refine ⟨[s, w], .signed s w a b, ?_, Iff.rfl, fun h => ?_⟩
    · rcases a with rfl | rfl
      · exact (sg '-' (by decide)).comp h1 (fun _ _ => trivial)
      · exact (sg '+' (by decide)).comp h1 (fun _ _ => trivial)
    · rcases a with rfl | rfl <;> simp at h
  · intro w a b ht
    exact ⟨[w], .str w a b, ht.str (by simp) b, Iff.rfl, fun h => absurd h (nb (strLit_not_brace b))⟩
  · intro ws a b c ht
    obtain ⟨h1, h2, h3⟩ := join_lit b c (ht.merge a) ht.nul
    have hh : ¬ ws.head? = some c!"{" := by
      obtain ⟨w, ws', rfl⟩ := List.exists_cons_of_ne_nil b
      exact nb (strLit_not_brace (c w (by simp)))
    refine ⟨[joinStrings ws], ?_, ?_, ?_, fun h => absurd h hh⟩
    · have := Constant.strs (G := G.strict) [joinStrings ws] a (by simp) (by simpa using h1)
      rw [h2] at this
      exact this
    · refine standing_splits (strLit_standing h1 ?_) h3
      obtain ⟨q, b', hq, _, e⟩ := h1
      intro _ hz
      obtain ⟨d, w', e', _⟩ := hz
      rw [e] at e'
      rcases hq with rfl | rfl <;> simp at e'
    · exact ⟨fun h => absurd h (nb (strLit_not_brace h1)), fun h => absurd h hh⟩
  · intro a _
    exact ⟨_, .emptyMsg a, ((sg '{' (by decide)).comp (sg '}' (by decide)) (fun _ _ => trivial)).mono (fun _ _ => trivial),
      Iff.rfl, fun _ => rfl⟩
  · intro a _
    exact ⟨_, .emptyList a, ((sg '[' (by decide)).comp (sg ']' (by decide)) (fun _ _ => trivial)).mono (fun _ _ => trivial),
      Iff.rfl, fun h => absurd h (by decide)⟩
  · intro s ws cl a _ b ih ht
    obtain ⟨ws', h1, h2⟩ := ih (Tame.left (Tame.tail (w := c!"[") (by simpa using ht)))
    refine ⟨c!"[" :: ws' ++ [c!"]"], .list s ws' _ a h1 (.inl rfl), ?_, ?_, fun h => absurd h (nb (by decide))⟩
    · have h3 := (sg '[' (by decide)).comp h2 (fun _ _ => trivial)
      exact (h3.comp (sg ']' (by decide)) (fun t _ => sep_sign (by decide) (by decide) [] t)).mono (fun _ _ => trivial)
    · simp
  · intro s ws a _ ih ht
    obtain ⟨ws', h1, h2⟩ := ih ht.tail
    refine ⟨c!"{" :: ws', .msg s ws' a h1, ?_, by simp, fun _ => rfl⟩
    exact ((sg '{' (by decide)).comp h2 (fun _ _ => trivial)).mono (fun _ _ => trivial)
  · intro s ws _ ih ht
    obtain ⟨ws', h1, h2, _⟩ := ih ht
    exact ⟨ws', .one s ws' h1, h2⟩
  · intro s ws s' ws' _ _ ih ih' ht
    obtain ⟨us, h1, h2⟩ := ih ht.left
    obtain ⟨us', h1', h2', _⟩ := ih' ht.right.tail
    refine ⟨_, .more s us s' us' h1 h1', ?_⟩
    have h3 := (h2.comp (sg ',' (by decide)) (fun t _ => sep_sign (by decide) (by decide) [] t)).comp h2' (fun _ _ => trivial)
    rw [List.append_assoc] at h3
    exact h3
  · intro w s ws a _ ih ht
    obtain ⟨us, h1, h2, h3, _⟩ := ih ht.tail.tail
    have h4 := Entry.colon (G := G.strict) w s us a h1
    rw [decide_eq_decide.2 h3] at h4
    refine ⟨_, h4, ?_⟩
    exact ((word_splits a).comp (sg ':' (by decide)) (fun t _ => wsep_sign (by decide) [] t)).comp h2 (fun _ _ => trivial)
  · intro w s ws a _ b ih ht
    obtain ⟨us, h1, h2, h3, h4⟩ := ih ht.tail
    refine ⟨_, .brace w s us a h1 (h3.2 b), (word_splits a).comp h2 (fun t _ => ?_)⟩
    have := h4 b
    cases s with
    | nil => cases this
    | cons c s =>
      simp only [List.head?_cons, Option.some.injEq] at this
      subst this
      exact wsep_sign (by decide) s t
  · intro w s ws a _ b ih ht
    obtain ⟨us, h1, h2, h3, h4⟩ := ih (Tame.left ht.tail.tail)
    refine ⟨_, .semi w s us a h1 (h3.2 b), ?_⟩
    have h5 := ((word_splits a).comp (sg ':' (by decide)) (fun t _ => wsep_sign (by decide) [] t)).comp h2 (fun _ _ => trivial)
    exact (h5.comp (sg ';' (by decide)) (fun t _ => sep_sign (by decide) (by decide) [] t)).mono (fun _ _ => trivial)
  · intro b s ws _ ih ht
    obtain ⟨us, h1, h2⟩ := ih ht.left
    exact ⟨_, .last b s us h1, h2.comp (sg '}' (by decide)) (fun t _ => sep_sign (by decide) (by decide) [] t)⟩
  · intro b s ws sep _ a ih ht
    obtain ⟨us, h1, h2⟩ := ih ht.left
    refine ⟨_, .lastSep b s us sep h1 a, ?_⟩
    have : ∃ c : Char, sep = [c] ∧ c ∈ signs ∧ c ≠ '.' := by
      rcases a with rfl | ⟨rfl, _⟩
      · exact ⟨',', rfl, by decide, by decide⟩
      · exact ⟨';', rfl, by decide, by decide⟩
    obtain ⟨c, rfl, hc, hc'⟩ := this
    have h3 := (h2.comp (sg c hc) (fun t _ => sep_sign hc hc' [] t)).comp (sg '}' (by decide)) (fun _ _ => trivial)
    rw [List.append_assoc us] at h3
    exact h3
  · intro b s ws sep s' ws' _ a _ ih ih' ht
    obtain ⟨us, h1, h2⟩ := ih ht.left
    obtain ⟨us', h1', h2'⟩ := ih' ht.right.tail
    refine ⟨_, .sep b s us sep s' us' h1 a h1', ?_⟩
    have : ∃ c : Char, sep = [c] ∧ c ∈ signs ∧ c ≠ '.' := by
      rcases a with rfl | ⟨rfl, _⟩
      · exact ⟨',', rfl, by decide, by decide⟩
      · exact ⟨';', rfl, by decide, by decide⟩
    obtain ⟨c, rfl, hc, hc'⟩ := this
    have h3 := (h2.comp (sg c hc) (fun t _ => sep_sign hc hc' [] t)).comp h2' (fun _ _ => trivial)
    rw [List.append_assoc us] at h3
    exact h3
  · intro b s ws s' ws' _ _ ih ih' ht
    obtain ⟨us, h1, h2⟩ := ih ht.left
    obtain ⟨us', h1', h2'⟩ := ih' ht.right
    refine ⟨_, .blank b s us s' us' h1 h1', ?_⟩
    have h3 := h2.comp (h2'.white white) (fun t _ d hd => by
      simp only [List.cons_append, List.head?_cons, Option.mem_some_iff] at hd
      subst hd
      unfold WordChar
      decide)
    rw [List.append_assoc]
    exact h3

end Verif.Spec
