import Verif.Proofs.Print
import Verif.Proofs.GramMono

/-!
# Printing a tree and reading it back: the statements
-/

set_option backward.isDefEq.respectTransparency false
set_option backward.dsimp.instances true

namespace Verif.Spec
open Verif Props

/-- The pieces `ps` consist of the spellings `ws`. -/
inductive Prints : List Str → List Str → Prop
  | nil : Prints [] []
  | cons {s : Str} {ps ws ws' : List Str} : Splits Sep ws s → Prints ps ws' → Prints (s :: ps) (ws ++ ws')

theorem Prints.append {ps ps' ws ws' : List Str} (h : Prints ps ws) (h' : Prints ps' ws') :
    Prints (ps ++ ps') (ws ++ ws') := by
  induction h with
  | nil => exact h'
  | cons hs _ ih => rw [List.append_assoc]; exact .cons hs ih

theorem Prints.one {s : Str} {ws : List Str} (h : Splits Sep ws s) : Prints [s] ws := by
  simpa using Prints.cons h .nil

theorem Prints.spread {ps ws : List Str} (h : Prints ps ws) : Spread ws (pieced ps) := by
  induction h with
  | nil => exact .nil _ (by simp [White]; decide)
  | @cons s ps ws ws' hs _ ih =>
    refine Spread.white (by unfold White; decide) (hs _ _ ?_ ih)
    intro d hd
    cases ps with
    | nil =>
      simp only [pieced, List.head?_cons, Option.mem_some_iff] at hd
      subst hd; unfold WordChar; decide
    | cons p ps =>
      simp only [pieced, List.head?_cons, Option.mem_some_iff] at hd
      subst hd; unfold WordChar; decide

theorem kw {w : Str} (h : isWord w = true) : Splits Sep [w] w := (word_splits (isWord_word h)).mono (fun _ h => h.w)
theorem sg (c : Char) (h : c ∈ signs) : Splits Sep [[c]] [c] := (sign_splits h).mono (fun _ _ => trivial)
theorem nm {w : Str} (h : Word w) : Splits Sep [w] w := (word_splits h).mono (fun _ h => h.w)

/-- A keyword or sign before pieces. -/
theorem Prints.kw {w : Str} (h : isWord w = true) {ps ws : List Str} (h' : Prints ps ws) : Prints (w :: ps) (w :: ws) :=
  .cons (Spec.kw h) h'
theorem Prints.sg (c : Char) (h : c ∈ signs) {ps ws : List Str} (h' : Prints ps ws) : Prints ([c] :: ps) ([c] :: ws) :=
  .cons (Spec.sg c h) h'
theorem Prints.nm {w : Str} (h : Word w) {ps ws : List Str} (h' : Prints ps ws) : Prints (w :: ps) (w :: ws) :=
  .cons (Spec.nm h) h'

theorem written {ws : List Str} (h : ws ≠ []) : Written (ws.map tokOf) {} ws := ⟨words_tokOf ws, spans_tokOf h⟩

theorem commas_snoc {xs : List (List Str)} (h : xs ≠ []) (x : List Str) : commas (xs ++ [x]) = commas xs ++ c!"," :: x := by
  induction xs with
  | nil => exact absurd rfl h
  | cons y xs ih =>
    cases xs with
    | nil => simp [commas]
    | cons z xs =>
      have := ih (by simp)
      show y ++ c!"," :: commas ((z :: xs) ++ [x]) = y ++ c!"," :: commas (z :: xs) ++ c!"," :: x
      rw [this]
      simp

theorem quote_sign {w : Str} (h : Quote w) : ∃ c : Char, w = [c] ∧ c ∈ signs ∧ c ≠ '.' := by
  rcases h with rfl | rfl
  · exact ⟨_, rfl, by decide, by decide⟩
  · exact ⟨_, rfl, by decide, by decide⟩

theorem syntax_print {x : Syntax} {ts : List Tok} (h : SyntaxToks x ts) :
    ∃ ws, Prints (printSyntax x) ws ∧ SyntaxToks (bareSyntax x) (ws.map tokOf) := by
  obtain ⟨h1, lq, tq, h2, h3, h4, _⟩ := h
  have hw : Word x.protobufVersion := by
    rcases h1 with h1 | h1 <;> rw [h1] <;> exact isWord_word (by decide +kernel)
  refine ⟨[c!"syntax", c!"=", lq, x.protobufVersion, tq, c!";"], ?_, h1, lq, tq, h2, h3, h4, written (by simp)⟩
  obtain ⟨a, rfl, ha, _⟩ := quote_sign h2
  obtain ⟨b, rfl, hb, _⟩ := quote_sign h3
  unfold printSyntax
  rw [h4]
  refine .kw (by decide +kernel) (.sg '=' (by decide) (Prints.cons (ws := [[a], x.protobufVersion, [b]]) ?_ (.sg ';' (by decide) .nil)))
  exact (((sign_splits ha).comp (word_splits hw) (fun _ _ => trivial)).comp (sign_splits hb)
    (fun t _ => wsep_sign hb [] t)).mono (fun _ _ => trivial)

theorem edition_print {G : Gram} {x : Edition} {ts : List Tok} (h : EditionToks x ts) (ht : Tame G (words ts)) :
    ∃ ws, Prints (printEdition x) ws ∧ EditionToks (bareEdition x) (ws.map tokOf) := by
  obtain ⟨h1, lq, tq, h2, h3, h4, h5, _⟩ := h
  rw [h5] at ht
  have hw : Splits Sep [x.edition] x.edition := ht.number (by simp) (.inl h1)
  refine ⟨[c!"edition", c!"=", lq, x.edition, tq, c!";"], ?_, h1, lq, tq, h2, h3, h4, written (by simp)⟩
  obtain ⟨a, rfl, ha, _⟩ := quote_sign h2
  obtain ⟨b, rfl, hb, hb'⟩ := quote_sign h3
  unfold printEdition
  rw [h4]
  refine .kw (by decide +kernel) (.sg '=' (by decide) (Prints.cons (ws := [[a], x.edition, [b]]) ?_ (.sg ';' (by decide) .nil)))
  exact (((sign_splits ha).comp hw (fun _ _ => trivial)).comp (sign_splits hb)
    (fun t _ => sep_sign hb hb' [] t)).mono (fun _ _ => trivial)

theorem package_print {x : Package} {ts : List Tok} (h : PackageToks x ts) :
    ∃ ws, Prints (printPackage x) ws ∧ PackageToks (barePackage x) (ws.map tokOf) := by
  obtain ⟨ws, h1, _⟩ := h
  refine ⟨c!"package" :: ws ++ [c!";"], ?_, ws, h1, written (by simp)⟩
  exact .kw (by decide +kernel) (.cons ((fullIdent_splits h1).mono fun _ h => h.w) (.sg ';' (by decide) .nil))

theorem modifier_print {G : Gram} {m : ImportModifier} {ms : List Str} (h : Modifier G m ms) :
    ∃ ms', Prints (printModifier m) ms' ∧ Modifier G.strict m ms' := by
  cases h with
  | none => exact ⟨_, .nil, .none⟩
  | «public» => exact ⟨_, .kw (by decide +kernel) .nil, .public⟩
  | weak => exact ⟨_, .kw (by decide +kernel) .nil, .weak⟩
  | junk w h => exact ⟨_, .nil, .none⟩

theorem import_print {G : Gram} {x : Import} {ts : List Tok} (h : ImportToks G x ts)
    (ht : Tame G (words ts)) : ∃ ws, Prints (printImport x) ws ∧ ImportToks G.strict (bareImport x) (ws.map tokOf) := by
  obtain ⟨h1, ms, h2, h3, _⟩ := h
  rw [h3] at ht
  obtain ⟨ms', h4, h5⟩ := modifier_print h2
  refine ⟨c!"import" :: ms' ++ [x.location, c!";"], ?_, h1, ms', h5, written (by simp)⟩
  exact .kw (by decide +kernel) (h4.append (.cons (ht.str (by simp) h1) (.sg ';' (by decide) .nil)))

section
variable {G : Gram}

theorem option_print {x : OptionStmt} {ts : List Tok} (h : OptionToks G x ts) (ht : Tame G (words ts)) :
    ∃ ws, Prints (printOption x) ws ∧ OptionToks G.strict (bareOption x) (ws.map tokOf) := by
  obtain ⟨ns, cs, h1, h2, h3, _⟩ := h
  rw [h3] at ht
  obtain ⟨cs', h4, h5, _⟩ := constant_print h2 (ht.infix ⟨c!"option" :: ns ++ [c!"="], [c!";"], by simp⟩)
  refine ⟨c!"option" :: ns ++ c!"=" :: cs' ++ [c!";"], ?_, ns, cs', h1.strict, h4, written (by simp)⟩
  have := Prints.kw (w := c!"option") (by decide +kernel) (.cons ((optionName_splits h1).mono fun _ h => h.w)
    (.sg '=' (by decide) (.cons h5 (.sg ';' (by decide) .nil))))
  simpa [printOption] using this

/-- The pieces of an option of a field. -/
def printFieldOption (x : FieldOption) : List Str := [x.optionName, c!"=", x.constant]

theorem fieldOption_print {x : FieldOption} {ws : List Str} (h : FieldOptionToks G x ws) (ht : Tame G ws) :
    ∃ ws', Prints (printFieldOption x) ws' ∧ FieldOptionToks G.strict x ws' := by
  obtain ⟨ns, cs, h1, h2, rfl⟩ := h
  obtain ⟨cs', h4, h5, _⟩ := constant_print h2 ht.right.tail
  exact ⟨_, .cons ((optionName_splits h1).mono fun _ h => h.w) (.sg '=' (by decide) (.one h5)), ns, cs', h1.strict, h4, rfl⟩

theorem fieldOptionList_print {xs : List FieldOption} {ws : List Str} (h : FieldOptionList G xs ws) (ht : Tame G ws) :
    xs ≠ [] ∧ ∃ ws', Prints (commas (xs.map printFieldOption)) ws' ∧ FieldOptionList G.strict xs ws' := by
  induction h with
  | one x ws h =>
    obtain ⟨ws', h1, h2⟩ := fieldOption_print h ht
    exact ⟨by simp, ws', h1, .one x ws' h2⟩
  | more xs ws x ws' _ h ih =>
    obtain ⟨h1, us, h2, h3⟩ := ih ht.left
    obtain ⟨us', h4, h5⟩ := fieldOption_print h ht.right.tail
    refine ⟨by simp, _, ?_, .more xs us x us' h3 h5⟩
    rw [List.map_append, List.map_cons, List.map_nil, commas_snoc (by simpa using h1)]
    exact h2.append (.sg ',' (by decide) h4)

theorem fieldOptions_print {xs : List FieldOption} {ws : List Str} (h : FieldOptions G xs ws) (ht : Tame G ws) :
    ∃ ws', Prints (printFieldOptions xs) ws' ∧ FieldOptions G.strict xs ws' := by
  cases h with
  | none => exact ⟨[], .nil, .none⟩
  | some xs ws h =>
    obtain ⟨h1, us, h2, h3⟩ := fieldOptionList_print h ht.tail.left
    refine ⟨_, ?_, .some xs us h3⟩
    have := Prints.sg '[' (by decide) (h2.append (.sg ']' (by decide) .nil))
    cases xs with
    | nil => exact absurd rfl h1
    | cons x xs => exact this

theorem label_print {a b c : Bool} {ls : List Str} (h : Labelled a b c ls) : Prints (printLabel a b c) ls := by
  cases h with
  | none => exact .nil
  | repeated => exact .kw (by decide +kernel) .nil
  | required => exact .kw (by decide +kernel) .nil
  | optional => exact .kw (by decide +kernel) .nil

theorem field_print {x : Field} {ts : List Tok} (h : FieldToks G x ts) (ht : Tame G (words ts)) :
    ∃ ws, Prints (printField x) ws ∧ FieldToks G.strict (bareField x) (ws.map tokOf) ∧ ws.head? = (words ts).head? := by
  obtain ⟨h1, h2, ls, ws, os, h3, h4, h5, h6, h7, _⟩ := h
  rw [h7] at ht ⊢
  obtain ⟨os', h8, h9⟩ := fieldOptions_print h6 (ht.infix ⟨ls ++ ws ++ [x.fieldName, c!"=", x.fieldNumber], [c!";"], by simp⟩)
  refine ⟨ls ++ ws ++ [x.fieldName, c!"=", x.fieldNumber] ++ os' ++ [c!";"], ?_,
    ⟨h1, h2, ls, ws, os', h3, h4, h5, h9, written (by simp)⟩, ?_⟩
  · have := (label_print h3).append (.cons ((typeName_splits h4).mono fun _ h => h.w) (.nm h1 (.sg '=' (by decide)
      (.cons (ht.number (by simp) (.inl h2)) (h8.append (.sg ';' (by decide) .nil))))))
    simpa [printField] using this
  · cases ls with
    | cons => rfl
    | nil =>
      cases ws with
      | cons => rfl
      | nil => rfl

theorem mapField_print {x : MapField} {ts : List Tok} (h : MapFieldToks G x ts) (ht : Tame G (words ts)) :
    ∃ ws, Prints (printMapField x) ws ∧ MapFieldToks G.strict (bareMapField x) (ws.map tokOf) := by
  obtain ⟨h0, h1, h2, ws, os, h4, h6, h7, _⟩ := h
  rw [h7] at ht
  obtain ⟨os', h8, h9⟩ := fieldOptions_print h6
    (ht.infix ⟨[c!"map", c!"<", x.keyType, c!","] ++ ws ++ [c!">", x.mapName, c!"=", x.fieldNumber], [c!";"], by simp⟩)
  refine ⟨[c!"map", c!"<", x.keyType, c!","] ++ ws ++ [c!">", x.mapName, c!"=", x.fieldNumber] ++ os' ++ [c!";"], ?_,
    h0, h1, h2, ws, os', h4, h9, written (by simp)⟩
  have := Prints.kw (w := c!"map") (by decide +kernel) (.sg '<' (by decide) (.nm (keyType_word h0) (.sg ',' (by decide)
      (.cons ((typeName_splits h4).mono fun _ h => h.w) (.sg '>' (by decide) (.nm h1 (.sg '=' (by decide)
      (.cons (ht.number (by simp) (.inl h2)) (h8.append (.sg ';' (by decide) .nil))))))))))
  simpa [printMapField] using this

theorem oneofField_print {x : OneofField} {ts : List Tok} (h : OneofFieldToks G x ts) (ht : Tame G (words ts)) :
    ∃ ws, Prints (printOneofField x) ws ∧ OneofFieldToks G.strict (bareOneofField x) (ws.map tokOf) := by
  obtain ⟨h1, h2, ws, os, h4, h5, h6, h7, _⟩ := h
  rw [h7] at ht
  obtain ⟨os', h8, h9⟩ := fieldOptions_print h6 (ht.infix ⟨ws ++ [x.fieldName, c!"=", x.fieldNumber], [c!";"], by simp⟩)
  refine ⟨ws ++ [x.fieldName, c!"=", x.fieldNumber] ++ os' ++ [c!";"], ?_, h1, h2, ws, os', h4, h5, h9, written (by simp)⟩
  have := Prints.cons ((typeName_splits h4).mono fun _ h => h.w) (.nm h1 (.sg '=' (by decide)
      (.cons (ht.number (by simp) (.inl h2)) (h8.append (.sg ';' (by decide) .nil)))))
  simpa [printOneofField] using this

theorem words_append (a b : List Tok) : words (a ++ b) = words a ++ words b := List.map_append

theorem oneofItems_print {fs : List OneofField} {os : List OptionStmt} {ts : List Tok} (h : OneofItems G fs os ts)
    (ht : Tame G (words ts)) :
    (fs ≠ [] ∨ os ≠ []) ∧
    (∀ x ∈ fs, ∃ ws, Prints (printOneofField x) ws ∧ OneofFieldToks G.strict (bareOneofField x) (ws.map tokOf)) ∧
    ∀ x ∈ os, ∃ ws, Prints (printOption x) ws ∧ OptionToks G.strict (bareOption x) (ws.map tokOf) := by
  induction h with
  | lastField x ts h => exact ⟨.inl (by simp), by simpa using oneofField_print h ht, by simp⟩
  | lastOption x ts h => exact ⟨.inr (by simp), by simp, by simpa using option_print h ht⟩
  | field x ts fs os ts' h _ ih =>
    rw [words_append] at ht
    obtain ⟨_, h1, h2⟩ := ih ht.right
    exact ⟨.inl (by simp), List.forall_mem_cons.2 ⟨oneofField_print h ht.left, h1⟩, h2⟩
  | option x ts fs os ts' h _ ih =>
    rw [words_append] at ht
    obtain ⟨_, h1, h2⟩ := ih ht.right
    exact ⟨.inr (by simp), h1, List.forall_mem_cons.2 ⟨option_print h ht.left, h2⟩⟩
  | empty t fs os ts h _ ih => exact ih (Tame.tail (w := t.text) ht)

theorem fields_print {fs : List OneofField} (hne : fs ≠ [])
    (h : ∀ x ∈ fs, ∃ ws, Prints (printOneofField x) ws ∧ OneofFieldToks G.strict (bareOneofField x) (ws.map tokOf)) :
    ∃ ws, Prints (fs.flatMap printOneofField) ws ∧ OneofItems G.strict (fs.map bareOneofField) [] (ws.map tokOf) := by
  induction fs with
  | nil => exact absurd rfl hne
  | cons x fs ih =>
    obtain ⟨ws, h1, h2⟩ := h x (by simp)
    by_cases hf : fs = []
    · subst hf
      exact ⟨ws, by simpa using h1, .lastField _ _ h2⟩
    · obtain ⟨ws', h3, h4⟩ := ih hf (fun x hx => h x (by simp [hx]))
      refine ⟨ws ++ ws', ?_, ?_⟩
      · rw [List.flatMap_cons]; exact h1.append h3
      · rw [List.map_append]; exact .field _ _ _ _ _ h2 h4

theorem oneofAll_print {fs : List OneofField} {os : List OptionStmt} (hne : fs ≠ [] ∨ os ≠ [])
    (hf : ∀ x ∈ fs, ∃ ws, Prints (printOneofField x) ws ∧ OneofFieldToks G.strict (bareOneofField x) (ws.map tokOf))
    (ho : ∀ x ∈ os, ∃ ws, Prints (printOption x) ws ∧ OptionToks G.strict (bareOption x) (ws.map tokOf)) :
    ∃ ws, Prints (os.flatMap printOption ++ fs.flatMap printOneofField) ws ∧
      OneofItems G.strict (fs.map bareOneofField) (os.map bareOption) (ws.map tokOf) := by
  induction os with
  | nil =>
    obtain ⟨ws, h1, h2⟩ := fields_print (by simpa using hne) hf
    exact ⟨ws, by simpa using h1, h2⟩
  | cons x os ih =>
    obtain ⟨ws, h1, h2⟩ := ho x (by simp)
    by_cases he : fs ≠ [] ∨ os ≠ []
    · obtain ⟨ws', h3, h4⟩ := ih he (fun x hx => ho x (by simp [hx]))
      refine ⟨ws ++ ws', ?_, ?_⟩
      · rw [List.flatMap_cons, List.append_assoc]; exact h1.append h3
      · rw [List.map_append]; exact .option _ _ _ _ _ h2 h4
    · obtain ⟨rfl, rfl⟩ : fs = [] ∧ os = [] := by simpa using he
      exact ⟨ws, by simpa using h1, .lastOption _ _ h2⟩

theorem oneof_print {x : Oneof} {ts : List Tok} (h : OneofToks G x ts) (ht : Tame G (words ts)) :
    ∃ ws, Prints (printOneof x) ws ∧ OneofToks G.strict (bareOneof x) (ws.map tokOf) := by
  obtain ⟨h1, hd, is, cl, h2, h3, h4, rfl, _⟩ := h
  rw [words_append, words_append] at ht
  obtain ⟨h5, h6, h7⟩ := oneofItems_print h3 ht.left.right
  obtain ⟨ws, h8, h9⟩ := oneofAll_print h5 h6 h7
  refine ⟨[c!"oneof", x.oneofName, c!"{"] ++ ws ++ [c!"}"], ?_, h1, [c!"oneof", x.oneofName, c!"{"].map tokOf,
    ws.map tokOf, [c!"}"].map tokOf, words_tokOf _, h9, .inl (words_tokOf _), by simp, spans_tokOf (by simp)⟩
  have := Prints.kw (w := c!"oneof") (by decide +kernel) (.nm h1 (.sg '{' (by decide) (h8.append (.sg '}' (by decide) .nil))))
  simpa [printOneof] using this

end

/-! ## Ranges, declarations -/

theorem intLit_ne {w : Str} (h : IntLit w) : w ≠ [] := by cases h <;> simp

theorem range_print {G : Gram} {x : Range} {ws : List Str} (h : RangeToks x ws) (ht : Tame G ws) : Prints (printRange x) ws := by
  cases h with
  | one w h => simpa [printRange] using Prints.one (ht.number (by simp) (.inl h))
  | to w e h h' =>
    have he : e ≠ [] := by
      rcases h' with h' | rfl
      · exact intLit_ne h'
      · simp
    have h1 : Splits Sep [e] e := by
      rcases h' with h' | rfl
      · exact ht.number (by simp) (.inl h')
      · exact kw (by decide +kernel)
    have := Prints.cons (ht.number (by simp) (.inl h)) (.kw (w := c!"to") (by decide +kernel) (.one h1))
    simpa [printRange, he] using this

theorem ranges_print {G : Gram} {xs : List Range} {ws : List Str} (h : RangesToks xs ws) (ht : Tame G ws) :
    xs ≠ [] ∧ Prints (commas (xs.map printRange)) ws := by
  induction h with
  | one x ws h => exact ⟨by simp, range_print h ht⟩
  | more xs ws x ws' _ h ih =>
    obtain ⟨h1, h2⟩ := ih ht.left
    refine ⟨by simp, ?_⟩
    rw [List.map_append, List.map_cons, List.map_nil, commas_snoc (by simpa using h1)]
    exact h2.append (.sg ',' (by decide) (range_print h ht.right.tail))

theorem reservedName_print {G : Gram} {ws : List Str} (ht : Tame G ws) {w : Str} (hw : w ∈ ws) (h : ReservedName w) :
    Splits Sep [w] w := by
  rcases h with h | h
  · exact ht.str hw h
  · exact nm h

theorem names_print {G : Gram} {ns ws : List Str} (h : NamesToks ns ws) (ht : Tame G ws) :
    ns ≠ [] ∧ ∃ ws', Prints (commas (ns.map fun w => [w])) ws' ∧ NamesToks ns ws' := by
  induction h with
  | one w h => exact ⟨by simp, [w], .one (reservedName_print ht (by simp) h), .one w h⟩
  | comma ns ws w _ h ih =>
    obtain ⟨h1, us, h2, h3⟩ := ih ht.left
    refine ⟨by simp, us ++ [c!",", w], ?_, .comma ns us w h3 h⟩
    rw [List.map_append, List.map_cons, List.map_nil, commas_snoc (by simpa using h1)]
    exact h2.append (.sg ',' (by decide) (.one (reservedName_print ht (by simp) h)))
  | blank ns ws w _ h ih =>
    obtain ⟨h1, us, h2, h3⟩ := ih ht.left
    refine ⟨by simp, us ++ [c!",", w], ?_, .comma ns us w h3 h⟩
    rw [List.map_append, List.map_cons, List.map_nil, commas_snoc (by simpa using h1)]
    exact h2.append (.sg ',' (by decide) (.one (reservedName_print ht (by simp) h)))

theorem reserved_print {G : Gram} {x : Reserved} {ts : List Tok} (h : ReservedToks G x ts)
    (ht : Tame G (words ts)) : ∃ ws, Prints (printReserved x) ws ∧ ReservedToks G.strict (bareReserved x) (ws.map tokOf) := by
  rcases h with ⟨ws, h1, h2, h3, _⟩ | ⟨js, ws, h1, h2, h3, h4, _⟩
  · rw [h3] at ht
    obtain ⟨_, h4⟩ := ranges_print h1 ht.tail.left
    refine ⟨c!"reserved" :: ws ++ [c!";"], ?_, .inl ⟨ws, h1, h2, written (by simp)⟩⟩
    have := Prints.kw (w := c!"reserved") (by decide +kernel) (h4.append (.sg ';' (by decide) .nil))
    simpa [printReserved, h2, commas] using this
  · rw [h4] at ht
    obtain ⟨_, us, h5, h6⟩ := names_print h1 (ht.infix ⟨c!"reserved" :: js, [c!";"], by simp⟩)
    refine ⟨c!"reserved" :: us ++ [c!";"], ?_, .inr ⟨[], us, h6, h2, .inl rfl, written (by simp)⟩⟩
    have := Prints.kw (w := c!"reserved") (by decide +kernel) (h5.append (.sg ';' (by decide) .nil))
    simpa [printReserved, h2, commas] using this

theorem lastItem_cases {α : Type} (sel : DeclItem → Option α) (d : α) (is : List DeclItem) :
    lastItem sel d is = d ∨ ∃ i ∈ is, sel i = some (lastItem sel d is) := by
  unfold lastItem
  cases h : (is.filterMap sel).getLast? with
  | none => exact .inl rfl
  | some a =>
    have := List.mem_of_getLast? h
    obtain ⟨i, h1, h2⟩ := List.mem_filterMap.1 this
    exact .inr ⟨i, h1, h2⟩

theorem declItems_mem {is : List DeclItem} {ws : List Str} (h : DeclItems is ws) {i : DeclItem} (hi : i ∈ is) :
    ∃ us, DeclItemToks i us ∧ ∀ w ∈ us, w ∈ ws := by
  induction h with
  | nil => cases hi
  | plain j ws is ws' h _ ih =>
    rcases List.mem_cons.1 hi with rfl | hi
    · exact ⟨ws, h, fun w hw => by simp [hw]⟩
    · obtain ⟨us, h1, h2⟩ := ih hi
      exact ⟨us, h1, fun w hw => by simp [h2 w hw]⟩
  | comma j ws is ws' h _ ih =>
    rcases List.mem_cons.1 hi with rfl | hi
    · exact ⟨ws, h, fun w hw => by simp [hw]⟩
    · obtain ⟨us, h1, h2⟩ := ih hi
      exact ⟨us, h1, fun w hw => by simp [h2 w hw]⟩

theorem DeclItems.append {is is' : List DeclItem} {ws ws' : List Str} (h : DeclItems is ws) (h' : DeclItems is' ws') :
    DeclItems (is ++ is') (ws ++ ws') := by
  induction h with
  | nil => exact h'
  | plain i ws is us h _ ih => rw [List.append_assoc]; exact .plain i ws _ _ h ih
  | comma i ws is us h _ ih => 
    have := DeclItems.comma i ws _ _ h ih
    simpa using this

theorem declItem_one {i : DeclItem} {ws : List Str} (h : DeclItemToks i ws) : DeclItems [i] ws := by
  simpa using DeclItems.plain i ws [] [] h .nil

theorem declaration_print {G : Gram} {x : Declaration} {ts : List Tok} (h : DeclarationToks x ts)
    (ht : Tame G (words ts)) : ∃ ws, Prints (printDeclaration x) ws ∧ DeclarationToks (bareDeclaration x) (ws.map tokOf) := by
  obtain ⟨is, ws, h1, hn, hf, hy, _, _, h3, _⟩ := h
  rw [h3] at ht
  have ht' : Tame G ws := ht.left.right
  obtain ⟨ni, nw, n1, n2, n3⟩ : ∃ ni nw, DeclItems ni nw ∧
      Prints (if x.number = [] then [] else [c!"number", c!":", x.number]) nw ∧
      ni = (if x.number = [] then [] else [.number x.number]) := by
    split
    · exact ⟨_, [], .nil, .nil, rfl⟩
    · next h =>
      rcases lastItem_cases selNumber [] is with e | ⟨i, hi, e⟩
      · exact absurd (hn.trans e) h
      · rw [← hn] at e
        obtain ⟨us, h4, h5⟩ := declItems_mem h1 hi
        cases i <;> simp only [selNumber, Option.some.injEq, reduceCtorEq] at e
        subst e
        cases h4 with
        | number _ h4 =>
          exact ⟨_, _, declItem_one (.number _ h4), .kw (by decide +kernel) (.sg ':' (by decide)
            (.one (ht'.number (h5 _ (by simp)) (.inl h4)))), rfl⟩
  obtain ⟨fi, fw, f1, f2, f3⟩ : ∃ ni nw, DeclItems ni nw ∧
      Prints (if x.fullName = [] then [] else [c!"full_name", c!":", x.fullName]) nw ∧
      ni = (if x.fullName = [] then [] else [.fullName x.fullName]) := by
    split
    · exact ⟨_, [], .nil, .nil, rfl⟩
    · next h =>
      rcases lastItem_cases selFullName [] is with e | ⟨i, hi, e⟩
      · exact absurd (hf.trans e) h
      · rw [← hf] at e
        obtain ⟨us, h4, h5⟩ := declItems_mem h1 hi
        cases i <;> simp only [selFullName, Option.some.injEq, reduceCtorEq] at e
        subst e
        cases h4 with
        | fullName _ h4 =>
          exact ⟨_, _, declItem_one (.fullName _ h4), .kw (by decide +kernel) (.sg ':' (by decide)
            (.one (ht'.str (h5 _ (by simp)) h4))), rfl⟩
  obtain ⟨yi, yw, y1, y2, y3⟩ : ∃ ni nw, DeclItems ni nw ∧
      Prints (if x.type = [] then [] else [c!"type", c!":", x.type]) nw ∧
      ni = (if x.type = [] then [] else [.type x.type]) := by
    split
    · exact ⟨_, [], .nil, .nil, rfl⟩
    · next h =>
      rcases lastItem_cases selType [] is with e | ⟨i, hi, e⟩
      · exact absurd (hy.trans e) h
      · rw [← hy] at e
        obtain ⟨us, h4, h5⟩ := declItems_mem h1 hi
        cases i <;> simp only [selType, Option.some.injEq, reduceCtorEq] at e
        subst e
        cases h4 with
        | type _ h4 =>
          exact ⟨_, _, declItem_one (.type _ h4), .kw (by decide +kernel) (.sg ':' (by decide)
            (.one (ht'.str (h5 _ (by simp)) h4))), rfl⟩
  obtain ⟨pi, pw, p1, p2, p3⟩ : ∃ ni nw, DeclItems ni nw ∧
      Prints (if x.repeated then [c!"repeated", c!":", c!"true"] else []) nw ∧
      ni = (if x.repeated then [.repeated c!"true"] else []) := by
    split
    · exact ⟨_, _, declItem_one (.repeated c!"true" (isWord_word (by decide +kernel))),
        .kw (by decide +kernel) (.sg ':' (by decide) (.kw (by decide +kernel) .nil)), rfl⟩
    · exact ⟨_, [], .nil, .nil, rfl⟩
  obtain ⟨ri, rw', r1, r2, r3⟩ : ∃ ni nw, DeclItems ni nw ∧
      Prints (if x.reserved then [c!"reserved", c!":", c!"true"] else []) nw ∧
      ni = (if x.reserved then [.reserved c!"true"] else []) := by
    split
    · exact ⟨_, _, declItem_one (.reserved c!"true" (isWord_word (by decide +kernel))),
        .kw (by decide +kernel) (.sg ':' (by decide) (.kw (by decide +kernel) .nil)), rfl⟩
    · exact ⟨_, [], .nil, .nil, rfl⟩
  refine ⟨[c!"declaration", c!"=", c!"{"] ++ (nw ++ (fw ++ (yw ++ (pw ++ rw')))) ++ [c!"}"], ?_,
    ni ++ (fi ++ (yi ++ (pi ++ ri))), _, n1.append (f1.append (y1.append (p1.append r1))), ?_, ?_, ?_, ?_, ?_, written (by simp)⟩
  · have := Prints.kw (w := c!"declaration") (by decide +kernel) (.sg '=' (by decide) (.sg '{' (by decide)
      ((n2.append (f2.append (y2.append (p2.append r2)))).append (.sg '}' (by decide) .nil))))
    simpa only [printDeclaration, List.cons_append, List.nil_append, List.append_assoc] using this
  all_goals
    clear h1 n1 f1 y1 p1 r1 n2 f2 y2 p2 r2 ht ht' hn hf hy
    subst n3 f3 y3 p3 r3
    simp only [bareDeclaration]
    by_cases c1 : x.number = [] <;> by_cases c2 : x.fullName = [] <;> by_cases c3 : x.type = [] <;>
      cases c4 : x.repeated <;> cases c5 : x.reserved <;>
      simp [lastItem, c1, c2, c3, selNumber, selFullName, selType, selRepeated, selReserved]

theorem declarationList_print {G : Gram} {xs : List Declaration} {ts : List Tok} (h : DeclarationList xs ts)
    (ht : Tame G (words ts)) : xs ≠ [] ∧ ∃ ws, Prints (commas (xs.map printDeclaration)) ws ∧
      DeclarationList (xs.map bareDeclaration) (ws.map tokOf) := by
  induction h with
  | one x ts h =>
    obtain ⟨ws, h1, h2⟩ := declaration_print h ht
    exact ⟨by simp, ws, h1, .one _ _ h2⟩
  | more x ts t xs ts' h ht' _ ih =>
    rw [words_append] at ht
    obtain ⟨ws, h1, h2⟩ := declaration_print h ht.left
    obtain ⟨h3, ws', h4, h5⟩ := ih (Tame.tail (w := t.text) ht.right)
    refine ⟨by simp, ws ++ c!"," :: ws', ?_, ?_⟩
    · obtain ⟨y, ys, rfl⟩ := List.exists_cons_of_ne_nil h3
      exact h1.append (.sg ',' (by decide) h4)
    · rw [List.map_append]
      exact .more _ _ (tokOf c!",") _ _ h2 rfl h5

theorem declarations_print {G : Gram} {xs : List Declaration} {ts : List Tok} (h : Declarations xs ts)
    (ht : Tame G (words ts)) : ∃ ws, Prints (printDeclarations xs) ws ∧
      Declarations (xs.map bareDeclaration) (ws.map tokOf) := by
  cases h with
  | none => exact ⟨[], .nil, .none⟩
  | some xs a ts b ha h hb =>
    have ht' : Tame G (words ts) := by
      rw [words_append] at ht
      exact Tame.tail (w := a.text) ht.left
    obtain ⟨h1, ws, h2, h3⟩ := declarationList_print h ht'
    refine ⟨c!"[" :: ws ++ [c!"]"], ?_, ?_⟩
    · obtain ⟨y, ys, rfl⟩ := List.exists_cons_of_ne_nil h1
      exact .sg '[' (by decide) (h2.append (.sg ']' (by decide) .nil))
    · have := Declarations.some _ (tokOf c!"[") _ (tokOf c!"]") rfl h3 rfl
      simpa using this

theorem extensions_print {G : Gram} {x : Extensions} {ts : List Tok} (h : ExtensionsToks x ts)
    (ht : Tame G (words ts)) : ∃ ws, Prints (printExtensions x) ws ∧ ExtensionsToks (bareExtensions x) (ws.map tokOf) := by
  obtain ⟨a, rs, ds, b, ha, h1, h2, hb, rfl, _⟩ := h
  rw [words_append, words_append] at ht
  obtain ⟨_, h3⟩ := ranges_print h1 (Tame.tail (w := a.text) ht.left.left)
  obtain ⟨ws, h4, h5⟩ := declarations_print h2 ht.left.right
  refine ⟨c!"extensions" :: (words rs ++ ws) ++ [c!";"], ?_, tokOf c!"extensions", (words rs).map tokOf, ws.map tokOf,
    tokOf c!";", rfl, by rw [words_tokOf]; exact h1, h5, rfl, by simp, spans_tokOf (by simp)⟩
  have := Prints.kw (w := c!"extensions") (by decide +kernel) ((h3.append h4).append (.sg ';' (by decide) .nil))
  simpa [printExtensions] using this

theorem enumField_print {G : Gram} {x : EnumField} {ts : List Tok} (h : EnumFieldToks G x ts)
    (ht : Tame G (words ts)) : ∃ ws, Prints (printEnumField x) ws ∧ EnumFieldToks G.strict (bareEnumField x) (ws.map tokOf) := by
  obtain ⟨h1, sgn, w, os, h2, h3, h4, h5, h6, _⟩ := h
  rw [h6] at ht
  obtain ⟨os', h7, h8⟩ := fieldOptions_print h5 (ht.infix ⟨x.ident :: c!"=" :: sgn ++ [w], [c!";"], by simp⟩)
  refine ⟨x.ident :: c!"=" :: sgn ++ w :: os' ++ [c!";"], ?_, h1, sgn, w, os', h2, h3, h4, h8, written (by simp)⟩
  have hw : Splits Sep [w] w := ht.number (by simp) (.inl h3)
  have hs : Splits Sep (sgn ++ [w]) x.number := by
    rw [h4]
    rcases h2 with rfl | rfl
    · exact hw
    · exact (sign_splits (c := '-') (by decide)).comp hw (fun _ _ => trivial)
  have := Prints.nm h1 (.sg '=' (by decide) (.cons hs (h7.append (.sg ';' (by decide) .nil))))
  simpa [printEnumField] using this

theorem rpcMessage_print {x : RPCMessage} {ts : List Tok} (h : RPCMessageToks x ts) :
    ∃ ws, Prints (printRPCMessage x) ws ∧ RPCMessageToks (bareRPCMessage x) (ws.map tokOf) := by
  obtain ⟨ws, h1, h2, _⟩ := h
  refine ⟨c!"(" :: (if x.isStream then [c!"stream"] else []) ++ ws ++ [c!")"], ?_, ws, h1, h2, written (by simp)⟩
  have h3 : Prints (if x.isStream then [c!"stream"] else []) (if x.isStream then [c!"stream"] else []) := by
    split
    · exact .kw (by decide +kernel) .nil
    · exact .nil
  have := Prints.sg '(' (by decide) (h3.append (.cons ((messageType_splits h1).mono fun _ h => h.w) (.sg ')' (by decide) .nil)))
  simpa [printRPCMessage] using this

theorem rpcOptions_print {G : Gram} {xs : List OptionStmt} {ts : List Tok} (h : RPCOptions G xs ts)
    (ht : Tame G (words ts)) : ∃ ws, Prints (xs.flatMap printOption) ws ∧
      RPCOptions G.strict (xs.map bareOption) (ws.map tokOf) := by
  induction h with
  | nil => exact ⟨[], .nil, .nil⟩
  | option x ts xs ts' h _ ih =>
    rw [words_append] at ht
    obtain ⟨ws, h1, h2⟩ := option_print h ht.left
    obtain ⟨ws', h3, h4⟩ := ih ht.right
    refine ⟨ws ++ ws', ?_, ?_⟩
    · rw [List.flatMap_cons]; exact h1.append h3
    · rw [List.map_append]; exact .option _ _ _ _ h2 h4
  | empty t xs ts _ _ ih => exact ih (Tame.tail (w := t.text) ht)

theorem rpc_print {G : Gram} {x : RPC} {ts : List Tok} (h : RPCToks G x ts)
    (ht : Tame G (words ts)) : ∃ ws, Prints (printRPC x) ws ∧ RPCToks G.strict (bareRPC x) (ws.map tokOf) := by
  obtain ⟨h1, hd, rq, rt, rs, tl, h2, h3, h4, h5, h6, rfl, _⟩ := h
  obtain ⟨qs, h7, h8⟩ := rpcMessage_print h3
  obtain ⟨ps, h9, h10⟩ := rpcMessage_print h5
  obtain ⟨us, h11, h12⟩ : ∃ us, Prints (printRPCEnd x.options) us ∧
      ((words (us.map tokOf) = [c!";"] ∧ x.options.map bareOption = []) ∨
      ∃ a os cl, a.text = c!"{" ∧ RPCOptions G.strict (x.options.map bareOption) os ∧ Close G.strict cl ∧ us.map tokOf = a :: os ++ cl) := by
    cases ho : x.options with
    | nil => exact ⟨[c!";"], .sg ';' (by decide) .nil, .inl ⟨words_tokOf _, rfl⟩⟩
    | cons o os =>
      rw [ho] at h6
      rcases h6 with ⟨_, h6⟩ | ⟨a, os', cl, _, h6, _, rfl⟩
      · cases h6
      · have ht' : Tame G (words os') := by
          refine ht.infix ⟨words (hd ++ rq ++ rt :: rs ++ [a]), words cl, ?_⟩
          simp [words]
        obtain ⟨ws, h13, h14⟩ := rpcOptions_print h6 ht'
        exact ⟨c!"{" :: ws ++ [c!"}"], .sg '{' (by decide) (h13.append (.sg '}' (by decide) .nil)),
          .inr ⟨tokOf c!"{", ws.map tokOf, [tokOf c!"}"], rfl, h14, .inl rfl, by simp⟩⟩
  refine ⟨[c!"rpc", x.rpcName] ++ qs ++ c!"returns" :: ps ++ us, ?_, h1, [c!"rpc", x.rpcName].map tokOf, qs.map tokOf,
    tokOf c!"returns", ps.map tokOf, us.map tokOf, words_tokOf _, h8, rfl, h10, h12, by simp, spans_tokOf (by simp)⟩
  have := (Prints.kw (w := c!"rpc") (by decide +kernel) (.nm h1 (h7.append (.kw (w := c!"returns") (by decide +kernel)
    (h9.append h11)))))
  simpa only [printRPC, List.cons_append, List.nil_append, List.append_assoc] using this

/-! ## Elements and bodies -/

/-- What is not printed. -/
def Skipped (v : Visitee) : Prop := print v = [] ∧ ∀ vs, coreAll (v :: vs) = coreAll vs

theorem body_print {G : Gram} {k : Ctx} {vs : List Visitee} {ts : List Tok}
    (h : Body G k vs ts) : Tame G (words ts) →
    ∃ ws, Prints (printAll vs) ws ∧ Body G.strict k (coreAll vs) (ws.map tokOf) ∧ ws.head? ≠ some c!";" := by
  have block : ∀ {w n : Str} {bs : List Visitee} {us : List Str}, isWord w = true → Word n → Prints (printAll bs) us →
      Prints ([w, n, c!"{"] ++ printAll bs ++ [c!"}"]) ([w, n, c!"{"] ++ us ++ [c!"}"]) := by
    intro w n bs us h1 h2 h3
    have := Prints.kw h1 (.nm h2 (.sg '{' (by decide) (h3.append (.sg '}' (by decide) .nil))))
    simpa using this
  have inner : ∀ {hd bs cl : List Tok}, Tame G (words (hd ++ bs ++ cl)) → Tame G (words bs) := by
    intro hd bs cl ht
    rw [words_append, words_append] at ht
    exact ht.left.right
  have close : Close G.strict ([c!"}"].map tokOf) := .inl rfl
  refine Body.rec
    (motive_1 := fun k v ts _ => Tame G (words ts) → Skipped v ∨
      ((∀ vs, coreAll (v :: vs) = core v :: coreAll vs) ∧ (∀ e, core v ≠ .emptyStatement e) ∧
        ∃ ws, Prints (print v) ws ∧ Toks G.strict k (core v) (ws.map tokOf)))
    (motive_2 := fun k vs ts _ => Tame G (words ts) →
      ∃ ws, Prints (printAll vs) ws ∧ Body G.strict k (coreAll vs) (ws.map tokOf) ∧ ws.head? ≠ some c!";")
    ?_ ?_ ?_ ?_ ?_ ?_ ?_ ?_ ?_ ?_ ?_ ?_ ?_ ?_ ?_ ?_ ?_ ?_ ?_ ?_ ?_ h
  · intro k c _; exact .inl ⟨by simp [print], fun _ => by simp [coreAll]⟩
  · intro k e t _ _; exact .inl ⟨by simp [print], fun _ => by simp [coreAll]⟩
  · intro k e ts t _ _ _ _; exact .inl ⟨by simp [print], fun _ => by simp [coreAll]⟩
  · intro _; exact .inl ⟨by simp [print], fun _ => by simp [coreAll]⟩
  · intro x ts a ht
    obtain ⟨ws, h1, h2⟩ := import_print a ht
    exact .inr ⟨fun _ => by simp [coreAll], by simp [core], ws, by simpa [print] using h1, by
      simpa [core] using Toks.importStmt _ _ h2⟩
  · intro x ts a _
    obtain ⟨ws, h1, h2⟩ := package_print a
    exact .inr ⟨fun _ => by simp [coreAll], by simp [core], ws, by simpa [print] using h1, by
      simpa [core] using Toks.package _ _ h2⟩
  · intro k x ts a b ht
    obtain ⟨ws, h1, h2⟩ := option_print b ht
    exact .inr ⟨fun _ => by simp [coreAll], by simp [core], ws, by simpa [print] using h1, by
      simpa [core] using Toks.option _ _ _ a h2⟩
  · intro k x hd bs cl a b c _ _ _ ih ht
    obtain ⟨ws, h1, h2, _⟩ := ih (inner ht)
    obtain ⟨nm, body, _, _, _, _⟩ := x
    refine .inr ⟨fun _ => by simp [coreAll], by simp [core], [c!"message", nm, c!"{"] ++ ws ++ [c!"}"], ?_, ?_⟩
    · simp only [print]
      exact block (by decide +kernel) c h1
    · simp only [core, List.map_append]
      refine .message k _ _ _ _ a rfl c h2 close ?_
      rw [← List.map_append, ← List.map_append]
      exact spans_tokOf (by simp)
  · intro x ls c w hd bs cl a b d e f g _ _ _ ih ht
    obtain ⟨ws, h1, h2, _⟩ := ih (inner ht)
    have hnum : Splits Sep [x.fieldNumber] x.fieldNumber := by
      refine ht.number ?_ (.inl g)
      rw [words_append, words_append, b]
      simp
    obtain ⟨r, q, o, nm, body, num, _, _, _, _⟩ := x
    refine .inr ⟨fun _ => by simp [coreAll], by simp [core], ls ++ [c!"group", nm, c!"=", num, c!"{"] ++ ws ++ [c!"}"], ?_, ?_⟩
    · simp only [print]
      have := (label_print a).append (.kw (w := c!"group") (by decide +kernel) (.nm d (.sg '=' (by decide) (.cons hnum
        (.sg '{' (by decide) (h1.append (.sg '}' (by decide) .nil)))))))
      simpa using this
    · simp only [core]
      have := Toks.group (G := G.strict)
          { isRepeated := r, isRequired := q, isOptional := o, groupName := nm, messageBody := coreAll body
            fieldNumber := num, info := {} } ls c w
          ((ls ++ [c!"group", nm, c!"=", num, c!"{"]).map tokOf) (ws.map tokOf) ([c!"}"].map tokOf) a (words_tokOf _) d e f g h2
          close (by rw [← List.map_append, ← List.map_append]; exact spans_tokOf (by simp))
      rw [← List.map_append, ← List.map_append] at this
      exact this
  · intro k x hd bs cl a b c _ _ _ ih ht
    obtain ⟨ws, h1, h2, _⟩ := ih (inner ht)
    obtain ⟨nm, body, _, _, _, _⟩ := x
    refine .inr ⟨fun _ => by simp [coreAll], by simp [core], [c!"enum", nm, c!"{"] ++ ws ++ [c!"}"], ?_, ?_⟩
    · simp only [print]
      exact block (by decide +kernel) c h1
    · simp only [core, List.map_append]
      refine .enum k _ _ _ _ a rfl c h2 close ?_
      rw [← List.map_append, ← List.map_append]
      exact spans_tokOf (by simp)
  · intro k x us hd bs cl a b c _ _ _ ih ht
    obtain ⟨ws, h1, h2, _⟩ := ih (inner ht)
    obtain ⟨nm, body, _, _, _, _⟩ := x
    refine .inr ⟨fun _ => by simp [coreAll], by simp [core], (c!"extend" :: us ++ [c!"{"]) ++ ws ++ [c!"}"], ?_, ?_⟩
    · simp only [print]
      have := Prints.kw (w := c!"extend") (by decide +kernel) (.cons ((messageType_splits b).mono fun _ h => h.w)
        (.sg '{' (by decide) (h1.append (.sg '}' (by decide) .nil))))
      simpa using this
    · simp only [core]
      rw [List.map_append, List.map_append]
      refine .extend k _ us _ _ _ a b (words_tokOf _) h2 close ?_
      rw [← List.map_append, ← List.map_append]
      exact spans_tokOf (by simp)
  · intro x hd bs cl a b _ _ _ ih ht
    obtain ⟨ws, h1, h2, _⟩ := ih (inner ht)
    obtain ⟨nm, body, _, _, _, _⟩ := x
    refine .inr ⟨fun _ => by simp [coreAll], by simp [core], [c!"service", nm, c!"{"] ++ ws ++ [c!"}"], ?_, ?_⟩
    · simp only [print]
      exact block (by decide +kernel) b h1
    · simp only [core, List.map_append]
      refine .service _ _ _ _ rfl b h2 close ?_
      rw [← List.map_append, ← List.map_append]
      exact spans_tokOf (by simp)
  · intro k x ts a b c ht
    obtain ⟨ws, h1, h2, h3⟩ := field_print b ht
    refine .inr ⟨fun _ => by simp [coreAll], by simp [core], ws, by simpa [print] using h1, ?_⟩
    simp only [core]
    refine .field k _ _ a h2 (fun hk t ht' => ?_)
    cases ws with
    | nil => cases ht'
    | cons w ws =>
      simp only [List.map_cons, List.head?_cons, Option.mem_some_iff] at ht'
      subst ht'
      cases ts with
      | nil => cases h3
      | cons t ts =>
        simp only [words, List.map_cons, List.head?_cons, Option.some.injEq] at h3
        have := c hk t rfl
        rwa [← h3] at this
  · intro x ts a b c ht
    obtain ⟨ws, h1, h2⟩ := enumField_print a ht
    exact .inr ⟨fun _ => by simp [coreAll], by simp [core], ws, by simpa [print] using h1, by
      simpa only [core] using Toks.enumField _ _ h2 b c⟩
  · intro x ts a ht
    obtain ⟨ws, h1, h2⟩ := oneof_print a ht
    exact .inr ⟨fun _ => by simp [coreAll], by simp [core], ws, by simpa [print] using h1, by
      simpa only [core] using Toks.oneof _ _ h2⟩
  · intro x ts a ht
    obtain ⟨ws, h1, h2⟩ := mapField_print a ht
    exact .inr ⟨fun _ => by simp [coreAll], by simp [core], ws, by simpa [print] using h1, by
      simpa only [core] using Toks.mapField _ _ h2⟩
  · intro k x ts a b ht
    obtain ⟨ws, h1, h2⟩ := reserved_print b ht
    exact .inr ⟨fun _ => by simp [coreAll], by simp [core], ws, by simpa [print] using h1, by
      simpa only [core] using Toks.reserved k _ _ a h2⟩
  · intro x ts a ht
    obtain ⟨ws, h1, h2⟩ := extensions_print a ht
    exact .inr ⟨fun _ => by simp [coreAll], by simp [core], ws, by simpa [print] using h1, by
      simpa only [core] using Toks.extensions _ _ h2⟩
  · intro x ts a ht
    obtain ⟨ws, h1, h2⟩ := rpc_print a ht
    exact .inr ⟨fun _ => by simp [coreAll], by simp [core], ws, by simpa [print] using h1, by
      simpa only [core] using Toks.rpc _ _ h2⟩
  · intro k _
    exact ⟨[], by simpa [printAll] using Prints.nil, by simpa [coreAll] using Body.nil k, by simp⟩
  · intro k v ts vs ts' _ _ _ ih ih' ht
    rw [words_append] at ht
    obtain ⟨ws', h1, h2, h3⟩ := ih' ht.right
    rcases ih ht.left with ⟨h4, h5⟩ | ⟨h4, h5, ws, h6, h7⟩
    · refine ⟨ws', ?_, by rw [h5]; exact h2, h3⟩
      simp only [printAll, h4, List.nil_append]
      exact h1
    · refine ⟨ws ++ ws', ?_, ?_, ?_⟩
      · simp only [printAll]
        exact h6.append h1
      · rw [h4, List.map_append]
        refine .cons k _ _ _ _ h7 h2 (fun _ _ _ => ?_)
        rw [words_tokOf]
        exact h3
      · have h8 := h7.head h5
        rw [words_tokOf] at h8
        cases ws with
        | nil => exact h3
        | cons w ws => exact h8

end Verif.Spec
