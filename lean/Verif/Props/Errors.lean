import Verif.Proofs.ExpectRun
import Verif.Proofs.ScanFault
import Verif.Props.Parse
import Verif.Props.Scanner
import Verif.Props.Format

/-!
# What errors say (C57)

`Spec.kinds` lists every text that an error of `Parse` can give as expected, with what the text describes.
-/

set_option backward.isDefEq.respectTransparency false
set_option backward.dsimp.instances true

namespace Verif.Props
open Scanner Spec Lexer

/-! ## C57: an error does not contradict itself -/

/-- C57, partial: in every error of `Parse`, what is said to be found is the text of a token, and it is not what is
said to be expected.  Missing: two texts about declarations, which `Fault` excepts. -/
theorem error_expected_partial {input : Str} (hn : NulFree input) {options : List ParseOpt} {fuel : Nat} {e : Err}
    (h : parse fuel input options = .error e) : Faults Fault e := by
  obtain ⟨l, h1⟩ := parse_err h
  have := (Parser.say_proto (cfgOf fuel options)).sat _ (good_new (f := fileOf options) hn)
  have h2 : runProto fuel (configOf options) input =
      Parser.parseProto (cfgOf fuel options) (Lexer.new input (fileOf options)) := rfl
  rw [← h2, h1] at this
  exact this.2

/-- A text is expected for one reason only. -/
theorem kinds_unique : (kinds.map Prod.fst).Nodup := by
  simp [kinds, declKeys, declEnd]

/-- What the errors of an error return say: the expected texts and the texts found. -/
def saidBy : Err → List (String × Option Str)
  | .single _ expected found => [(expected, foundText found)]
  | .pair a b => saidBy a ++ saidBy b

/-- The same for an outcome. -/
def said : Outcome Proto → List (String × Option Str)
  | .error e => saidBy e
  | _ => []

/-- C57 on an error with two faults. -/
example : NulFree c!"message M { int32 a = b; }" ∧
    said (parse 30 c!"message M { int32 a = b; }") = [("fieldNumber", some c!"b"), (";", some c!"b")] ∧
    ¬ IntLit c!"b" ∧ c!"b" ≠ c!";" := by
  refine ⟨by unfold NulFree; decide, by decide +kernel, ?_, by decide⟩
  intro h
  obtain ⟨c, r, h1, h2⟩ := intLit_head h
  simp only [List.cons.injEq] at h1
  rw [← h1.1] at h2
  revert h2
  decide

/-- C57 is violated behind a declaration: the token after the offending one is reported. -/
theorem error_expected_violation :
    said (parse 60 c!"message M{extensions 4 to 5 [declaration = {number: 4} x ];}") = [(declEnd, some c!"]")] ∧
      (declEnd, Kind.texts [c!",", c!"]"]) ∈ kinds := by
  refine ⟨by decide +kernel, ?_⟩
  simp [kinds]

/-- C57 is violated behind the comma of a declaration: a brace is said to be expected and found. -/
theorem error_expected_brace_violation :
    said (parse 60 c!"message M{extensions 4 to 5 [declaration = {number: 4,}];}") = [(declKeys, some c!"}")] ∧
      ∃ ws, (declKeys, Kind.texts ws) ∈ kinds ∧ c!"}" ∈ ws := by
  refine ⟨by decide +kernel, [c!"number", c!"full_name", c!"type", c!"repeated", c!"reserved", c!"}"], ?_, by simp⟩
  simp [kinds]

/-! ## C58: the errors of a scan -/

/-- C58: the error of a scan names a rune that was not what was expected, and which is the next one in the text, or the
last one read if a slash starts no comment. -/
theorem scan_expected {s s' : Scanner} {r : Scanned} {e : Err} (h : NulFree s.inp) (hs : scan s = .ok r s')
    (he : r.error = some e) :
    ∃ expected c, e = .single s'.pos.p expected (.rune c) ∧ ScanFault s'.raw s'.inp expected c := by
  obtain ⟨rfl, rfl⟩ := scan_inv h hs
  simp only [LexOut.scanned, Option.map_eq_some_iff] at he
  obtain ⟨⟨x, c⟩, h1, rfl⟩ := he
  refine ⟨x, c, ?_, ?_⟩
  · rw [after_pos]
  · rw [after_raw, after_inp]
    exact off_lex h1

/-- C58 on a number without digits behind the point. -/
example : ∃ r s', scan { Scanner.new c!" .5e+x" [] with mode := { number := true } } = .ok r s' ∧
    r.error = some (.single { offset := 5, line := 1, column := 6 } "decimalDigit" (.rune 'x')) ∧ s'.inp = c!"x" := by
  refine ⟨_, _, scan_eq (by unfold NulFree; decide), ?_⟩
  decide +kernel

/-! ## C59: the version -/

/-- C59: the version of a file with a syntax statement is 2 or 3, and it is the one that is written there. -/
theorem version_written {input : Str} (hn : NulFree input) {options : List ParseOpt} {fuel : Nat} {p : Proto}
    (h : parse fuel input options = .ok p) {s : Syntax} (hs : p.syntax_ = some s) :
    (Parser.Syntax.version s = 2 ∨ Parser.Syntax.version s = 3) ∧
      s.protobufVersion = c!"proto" ++ itoa (Parser.Syntax.version s) := by
  rcases (head_valid hn h).1 s hs with h1 | h1
  · have : Parser.Syntax.version s = 2 := by simp [Parser.Syntax.version, h1]
    rw [this, h1]
    exact ⟨.inl rfl, by decide⟩
  · have : Parser.Syntax.version s = 3 := by simp [Parser.Syntax.version, h1]
    rw [this, h1]
    exact ⟨.inr rfl, by decide⟩

/-- A file of version 2. -/
example : (match parse 20 c!"syntax = 'proto2';" [] with
    | .ok p => p.syntax_.map Parser.Syntax.version
    | _ => none) = some 2 := by decide +kernel

/-! ## C61: the text of an error determines the error -/

/-- The texts of what is expected. -/
def Told (e : String) : Prop := e ∈ kinds.map Prod.fst ∨ ∃ x, Word x ∧ e = groupText x

/-- No text of the table with its bracket is the start of another, or of the text about a group name. -/
theorem kinds_prefix : ∀ e ∈ kinds.map (fun x => x.1.toList ++ c!"]"),
    (∀ e' ∈ kinds.map (fun x => x.1.toList ++ c!"]"), e.isPrefixOf e' = true → e = e') ∧
    e.isPrefixOf c!"groupName \"" = false ∧ c!"groupName \"".isPrefixOf e = false := by
  decide +kernel

theorem word_noQuote {x : Str} (h : Word x) : '"' ∉ x := by
  cases h with
  | mk c w hc hw =>
    intro h
    rcases List.mem_cons.1 h with h | h
    · subst h; revert hc; unfold WordStart; decide
    · have := hw _ h; revert this; unfold WordChar; decide

/-- An expected text is recovered from the text behind the bracket. -/
theorem expected_inj {e e' : String} (he : Told e) (he' : Told e') {x y : Str}
    (h : e.toList ++ ']' :: x = e'.toList ++ ']' :: y) : e = e' ∧ x = y := by
  have key : ∀ {e : String}, e ∈ kinds.map Prod.fst → e.toList ++ c!"]" ∈ kinds.map (fun x => x.1.toList ++ c!"]") := by
    intro e h
    obtain ⟨a, h1, rfl⟩ := List.mem_map.1 h
    exact List.mem_map.2 ⟨a, h1, rfl⟩
  have mixed : ∀ {e : String} {w x y : Str}, e ∈ kinds.map Prod.fst →
      (e.toList ++ c!"]") ++ x = c!"groupName \"" ++ y → False := by
    intro e w x y he h
    obtain ⟨_, h1, h2⟩ := kinds_prefix _ (key he)
    rcases List.append_eq_append_iff.1 h with ⟨d, h3, _⟩ | ⟨d, h3, _⟩
    · rw [List.isPrefixOf_iff_prefix.2 ⟨d, h3.symm⟩] at h1; cases h1
    · rw [List.isPrefixOf_iff_prefix.2 ⟨d, h3.symm⟩] at h2; cases h2
  have h1 : (e.toList ++ c!"]") ++ x = (e'.toList ++ c!"]") ++ y := by simpa using h
  rcases he with he | ⟨w, hw, rfl⟩ <;> rcases he' with he' | ⟨w', hw', rfl⟩
  · have h2 : e.toList ++ c!"]" = e'.toList ++ c!"]" := by
      rcases List.append_eq_append_iff.1 h1 with ⟨d, h3, _⟩ | ⟨d, h3, _⟩
      · exact (kinds_prefix _ (key he)).1 _ (key he') (by rw [List.isPrefixOf_iff_prefix]; exact ⟨d, h3.symm⟩)
      · exact ((kinds_prefix _ (key he')).1 _ (key he) (by rw [List.isPrefixOf_iff_prefix]; exact ⟨d, h3.symm⟩)).symm
    rw [h2] at h1
    exact ⟨String.toList_injective (List.append_cancel_right h2), List.append_cancel_left h1⟩
  · simp only [groupText, String.toList_ofList, List.append_assoc (c!"groupName \"")] at h1
    exact absurd h1 (mixed (w := w') he)
  · simp only [groupText, String.toList_ofList, List.append_assoc (c!"groupName \"")] at h1
    exact absurd h1.symm (mixed (w := w) he')
  · simp only [groupText, String.toList_ofList, List.append_assoc] at h1
    obtain ⟨h2, h3⟩ := cut_first (word_noQuote hw) (word_noQuote hw') (List.append_cancel_left h1)
    subst h2
    exact ⟨rfl, List.append_cancel_left (as := c!" must begin with capital letter.]") h3⟩

/-- The text behind `expected`: the place in the library where the error was raised, if it is known. -/
theorem errorText_place (isPrint : Char → Bool) (f e o : Str) (n : Int) :
    errorText isPrint f e o n = c!"found " ++ (quoted isPrint f ++ (c!" but expected [" ++ (e ++ ']' ::
      (if n = 0 ∧ o = [] then [] else c!" at " ++ (o ++ ':' :: itoa n))))) := by
  unfold errorText
  split <;> simp

/-- C61: the text of a fault determines what was found, what was expected, and where it was raised. -/
theorem fault_text {isPrint : Char → Bool} {e e' : String} (he : Told e) (he' : Told e')
    {f f' o o' : Str} {n n' : Int} (h : errorText isPrint f e.toList o n = errorText isPrint f' e'.toList o' n') :
    f = f' ∧ e = e' ∧ o = o' ∧ n = n' := by
  rw [errorText_place, errorText_place] at h
  obtain ⟨h1, h2⟩ := quoted_inj isPrint (List.append_cancel_left h)
  obtain ⟨h3, h4⟩ := expected_inj he he' (List.append_cancel_left h2)
  refine ⟨h1, h3, ?_⟩
  split at h4 <;> split at h4
  · next a b => exact ⟨a.2.trans b.2.symm, a.1.trans b.1.symm⟩
  · simp at h4
  · simp at h4
  · obtain ⟨h5, h6⟩ := cut_last (no_colon _) (no_colon _) (List.append_cancel_left h4)
    exact ⟨h5, itoa_inj h6⟩

/-- What was expected at the first fault of an error of `Parse` is one of the texts. -/
theorem faults_first {e : Err} (h : Faults Fault e) : Told (firstFault e).2.1 := by
  induction h with
  | single pos ex f x _ h =>
    rcases h with (⟨k, h, _⟩ | ⟨h, hw, _⟩) | h | ⟨h, _⟩
    · exact .inl (List.mem_map_of_mem (f := Prod.fst) h)
    · exact .inr ⟨x, hw, h⟩
    · simp only [firstFault, h]; exact .inl (by decide +kernel)
    · simp only [firstFault, h]; exact .inl (by decide +kernel)
  | pair a b _ _ ih _ => exact ih

/-- C61: errors of `Parse` with the same text found and expected the same at their first fault, wherever they were
raised. -/
theorem error_text_expected {isPrint : Char → Bool} {input input' : Str} (hn : NulFree input) (hn' : NulFree input')
    {options options' : List ParseOpt} {fuel fuel' : Nat} {e e' : Err} (h : parse fuel input options = .error e)
    (h' : parse fuel' input' options' = .error e') {d d' : Bool} {s : Str}
    (hs : ErrText isPrint d e s) (hs' : ErrText isPrint d' e' s) :
    (firstFault e).2.2.string isPrint = (firstFault e').2.2.string isPrint ∧ (firstFault e).2.1 = (firstFault e').2.1 := by
  have he := faults_first (error_expected_partial hn h)
  have he' := faults_first (error_expected_partial hn' h')
  refine ⟨error_text_found hs hs', ?_⟩
  obtain ⟨o, n, r, h1⟩ := errText_first hs
  obtain ⟨o', n', r', h2⟩ := errText_first hs'
  rw [h1, errorText_place, errorText_place] at h2
  simp only [List.append_assoc] at h2
  obtain ⟨_, h3⟩ := quoted_inj isPrint (List.append_cancel_left h2)
  exact (expected_inj he he' (List.append_cancel_left h3)).1

/-- C61: an expected text that holds a bracket. -/
example : Told declEnd ∧ errorText (fun _ => true) c!"x" declEnd.toList c!"a.go" 7 =
    c!"found \"x\" but expected [, or ]] at a.go:7" := by
  constructor
  · exact .inl (by decide +kernel)
  · decide +kernel

/-- C57 on the name of a group; `Parse` takes this text for a field. -/
example : (match Parser.parseGroupField ⟨true, false, 9⟩ (Lexer.new c!"optional group a = 1 { }" []) with
    | .err e _ => saidBy e
    | _ => []) = [("groupName \"a\" must begin with capital letter.", some c!"a")] := by decide +kernel

/-- The outcome is this error. -/
def failsWith : Outcome Proto → Err → Bool
  | .error e, e' => decide (e = e')
  | _, _ => false

theorem failsWith_eq {r : Outcome Proto} {e : Err} (h : failsWith r e = true) : r = .error e := by
  cases r with
  | error e' => simp only [failsWith, decide_eq_true_eq] at h; rw [h]
  | _ => cases h

/-- C42: in debug mode the text of an error of the lexer is another one. -/
theorem debug_text : ∃ (input : Str) (e : Err), parse 9 input [withDebug false] = .error e ∧
    parse 9 input [withDebug true] = .error e ∧
    ∀ isPrint s t, ErrText isPrint false e s → ErrText isPrint true e t → s ≠ t := by
  refine ⟨c!"}", .single { offset := 0, line := 1, column := 1 } ";" (.text c!"}"),
    failsWith_eq (by decide +kernel), failsWith_eq (by decide +kernel), ?_⟩
  intro isPrint s t hs ht e
  subst e
  rcases error_text_place hs with ⟨h1, _⟩ | ⟨_, _, _, _, h⟩
  · rcases error_text_place ht with ⟨_, h, _⟩ | ⟨f, n, _, h2, _⟩
    · cases h
    · have := congrArg List.length (h1.symm.trans h2)
      simp at this
  · cases h ⟨_, rfl⟩

end Verif.Props
