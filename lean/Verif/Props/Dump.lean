import Verif.Props.Complete
import Verif.Props.Relational
import Verif.Props.Utf8
import Verif.Props.Shape
import Verif.Proofs.Json
import Verif.Proofs.DumpTree
import Verif.Proofs.DumpDepth
import Verif.Proofs.DumpUnordered

/-!
# The dump command (C71, C72)
-/

set_option backward.isDefEq.respectTransparency false
set_option backward.dsimp.instances true

namespace Verif.Props
open Spec Proofs Json
open Verif.Dump (Flags Ran run base)

/-- The command ends with this: it does so within some bound. -/
def Runs (flags : Flags) (file : Option (List Nat)) (r : Ran) : Prop := r ≠ .more ∧ ∃ fuel, run fuel flags file = r

/-- The file of a run was parsed to this tree. -/
def Parsed (flags : Flags) (bytes : List Nat) (p : Proto) : Prop :=
  Parses (Utf8.decode bytes) [withDebug flags.debug, withPermissive flags.permissive, withFilename (base flags.proto)] (.ok p)

/-- The steps of a run that ends. -/
theorem runs_cases {flags : Flags} {file : Option (List Nat)} {r : Ran} (h : Runs flags file r) :
    (file = none ∧ r = .exit 1 [] [.failedToOpen flags.proto]) ∨
    ∃ bytes, file = some bytes ∧
      ((∃ e, r = .exit 1 [] [.failedToParse e] ∧ Parses (Utf8.decode bytes) (Dump.options flags) (.error e)) ∨
       (r = .panic ∧ Parses (Utf8.decode bytes) (Dump.options flags) .panic) ∨
       ∃ p, Parsed flags bytes p ∧
        ((flags.unordered = false ∧ r = Dump.print p.json) ∨
         (flags.unordered = true ∧ ∃ u, Unordered.interpretProto p = .ok u ∧ r = Dump.print u.json) ∨
         (flags.unordered = true ∧ ∃ e, Unordered.interpretProto p = .error e ∧
            r = .exit 1 [] [.failedToInterpret e]))) := by
  obtain ⟨h0, fuel, h⟩ := h
  unfold run at h
  cases file with
  | none => exact .inl ⟨rfl, h.symm⟩
  | some bytes =>
    refine .inr ⟨bytes, rfl, ?_⟩
    simp only [Utf8.parseBytes] at h
    cases hp : parse fuel (Utf8.decode bytes) (Dump.options flags) with
    | more => rw [hp] at h; exact absurd h.symm h0
    | panic => rw [hp] at h; exact .inr (.inl ⟨h.symm, by simp, fuel, hp⟩)
    | error e => rw [hp] at h; exact .inl ⟨e, h.symm, by simp, fuel, hp⟩
    | ok p =>
      rw [hp] at h
      refine .inr (.inr ⟨p, ⟨by simp, fuel, hp⟩, ?_⟩)
      simp only at h
      split at h
      · next hu =>
        split at h
        · next e he => exact .inr (.inr ⟨hu, e, he, h.symm⟩)
        · next u he => exact .inr (.inl ⟨hu, u, he, h.symm⟩)
      · next hu => exact .inl ⟨by simpa using hu, h.symm⟩

theorem print_exit {j : Json} {c : Nat} {out : Str} {err : List Dump.Message} (h : .exit c out err = Dump.print j) :
    c = 0 ∧ ((marshalIndent j = some out ∧ err = []) ∨ (marshalIndent j = none ∧ out = [] ∧ err = [.failedToMarshal])) := by
  unfold Dump.print at h
  split at h <;> (injection h with h1 h2 h3; subst h1 h2 h3)
  · next hm => exact ⟨rfl, .inr ⟨hm, rfl, rfl⟩⟩
  · next hm => exact ⟨rfl, .inl ⟨hm, rfl⟩⟩

theorem print_more (j : Json) : Dump.print j ≠ .more := by
  unfold Dump.print; split <;> simp

theorem marshalIndent_ne {j : Json} {s : Str} (h : marshalIndent j = some s) : s ≠ [] := by
  unfold marshalIndent at h
  split at h <;> simp at h
  obtain ⟨c, t, h1, _⟩ := text_head 0 j
  rw [← h, h1]; simp

/-- What was printed is the tree, or the interpreted tree. -/
theorem printed {flags : Flags} {file : Option (List Nat)} {c : Nat} {out : Str} {err : List Dump.Message}
    (h : Runs flags file (.exit c out err)) (hne : out ≠ []) :
    ∃ bytes p, file = some bytes ∧ Parsed flags bytes p ∧ c = 0 ∧ err = [] ∧
      ((flags.unordered = false ∧ marshalIndent p.json = some out) ∨
       (flags.unordered = true ∧ ∃ u, Unordered.interpretProto p = .ok u ∧ marshalIndent u.json = some out)) := by
  rcases runs_cases h with ⟨_, e⟩ | ⟨bytes, hb, ⟨_, e, _⟩ | ⟨e, _⟩ | ⟨p, hp, ⟨hu, e⟩ | ⟨hu, u, hi, e⟩ | ⟨_, _, _, e⟩⟩⟩
  · injection e with _ e; exact absurd e hne
  · injection e with _ e; exact absurd e hne
  · cases e
  · obtain ⟨h1, ⟨h2, h3⟩ | ⟨_, h2, _⟩⟩ := print_exit e
    · exact ⟨bytes, p, hb, hp, h1, h3, .inl ⟨hu, h2⟩⟩
    · exact absurd h2 hne
  · obtain ⟨h1, ⟨h2, h3⟩ | ⟨_, h2, _⟩⟩ := print_exit e
    · exact ⟨bytes, p, hb, hp, h1, h3, .inr ⟨hu, u, hi, h2⟩⟩
    · exact absurd h2 hne
  · injection e with _ e; exact absurd e hne

/-! ## C71: the output tells the tree -/

/-- C71: two runs without `-unordered` that print the same have parsed the same tree, with all names, numbers,
comments and positions.  (An empty output is excluded: see `dump_silent`.) -/
theorem dump_faithful {flags flags' : Flags} {bytes bytes' : List Nat} {c c' : Nat} {out : Str}
    {err err' : List Dump.Message} (hu : flags.unordered = false) (hu' : flags'.unordered = false)
    (h : Runs flags (some bytes) (.exit c out err)) (h' : Runs flags' (some bytes') (.exit c' out err')) (hne : out ≠ []) :
    ∃ p, Parsed flags bytes p ∧ Parsed flags' bytes' p := by
  obtain ⟨b, p, e, h1, _, _, h2 | h2⟩ := printed h hne
  · obtain ⟨b', p', e', h1', _, _, h2' | h2'⟩ := printed h' hne
    · cases e; cases e'
      have := proto_inj _ _ (marshalIndent_inj h2.2 h2'.2)
      subst this
      exact ⟨p, h1, h1'⟩
    · rw [hu'] at h2'; simp at h2'
  · rw [hu] at h2; simp at h2

/-- C71: two runs with `-unordered` that print the same have made the same unordered tree. -/
theorem dump_faithful_unordered {flags flags' : Flags} {bytes bytes' : List Nat} {c c' : Nat} {out : Str}
    {err err' : List Dump.Message} (hu : flags.unordered = true) (hu' : flags'.unordered = true)
    (h : Runs flags (some bytes) (.exit c out err)) (h' : Runs flags' (some bytes') (.exit c' out err')) (hne : out ≠ []) :
    ∃ p p' u, Parsed flags bytes p ∧ Parsed flags' bytes' p' ∧ Unordered.interpretProto p = .ok u ∧
      Unordered.interpretProto p' = .ok u := by
  obtain ⟨b, p, e, h1, _, _, h2 | ⟨_, u, hi, h2⟩⟩ := printed h hne
  · rw [hu] at h2; simp at h2
  · obtain ⟨b', p', e', h1', _, _, h2' | ⟨_, u', hi', h2'⟩⟩ := printed h' hne
    · rw [hu'] at h2'; simp at h2'
    · cases e; cases e'
      have := uproto_inj _ _ (marshalIndent_inj h2 h2')
      subst this
      exact ⟨p, p', u, h1, h1', hi, hi'⟩

/-- C71: what is printed is a JSON text. -/
theorem dump_json {flags : Flags} {file : Option (List Nat)} {c : Nat} {out : Str} {err : List Dump.Message}
    (h : Runs flags file (.exit c out err)) (hne : out ≠ []) : ∃ fs, JsonValue out (.obj fs) := by
  have key : ∀ {j : Json}, marshalIndent j = some out → JsonValue out j := by
    intro j hj
    unfold marshalIndent at hj
    split at hj <;> simp at hj
    rw [← hj]
    exact jsonValue_text j 0
  obtain ⟨b, p, e, h1, _, _, h2 | ⟨_, u, _, h2⟩⟩ := printed h hne
  · exact ⟨_, key h2.2⟩
  · exact ⟨_, key h2⟩

/-- What a run prints, if it ends with the exit code 0. -/
def output : Ran → Str
  | .exit 0 out _ => out
  | _ => []

/-- The three theorems apply: a file and the same file with a blank at the end print the same. -/
example : (output (run 20 { proto := c!"d/a.proto" } (some (encode c!"enum E{a=1[x=\"<\t\"];}//c")))).length = 1504 ∧
    output (run 20 { proto := c!"d/a.proto" } (some (encode c!"enum E{a=1[x=\"<\t\"];}//c"))) =
      output (run 20 { proto := c!"e/a.proto" } (some (encode c!"enum E{a=1[x=\"<\t\"];}//c\n "))) := by
  decide +kernel

example : (output (run 20 { unordered := true } (some (encode c!"service E{rpc F(A)returns(B);}")))).length = 2548 ∧
    output (run 20 { unordered := true } (some (encode c!"service E{rpc F(A)returns(B);}"))) =
      output (run 20 { unordered := true } (some (encode c!"service E{rpc F(A)returns(B);}\n"))) := by
  decide +kernel

/-! ## C72: the exit code -/

/-- C72: the exit code is 0 exactly if the file is accepted, and with `-unordered` if it can be interpreted. -/
theorem dump_code {flags : Flags} {bytes : List Nat} :
    (∃ out err, Runs flags (some bytes) (.exit 0 out err)) ↔
      ∃ p, Parsed flags bytes p ∧ (flags.unordered = true → ∃ u, Unordered.interpretProto p = .ok u) := by
  constructor
  · rintro ⟨out, err, h⟩
    rcases runs_cases h with ⟨_, e⟩ | ⟨b, hb, ⟨_, e, _⟩ | ⟨e, _⟩ | ⟨p, hp, ⟨hu, e⟩ | ⟨hu, u, hi, e⟩ | ⟨_, _, _, e⟩⟩⟩
    · simp at e
    · simp at e
    · cases e
    · cases hb; exact ⟨p, hp, by simp [hu]⟩
    · cases hb; exact ⟨p, hp, fun _ => ⟨u, hi⟩⟩
    · simp at e
  · rintro ⟨p, ⟨_, fuel, hp⟩, hi⟩
    have hprint : ∀ j, ∃ out err, Dump.print j = .exit 0 out err := by
      intro j; unfold Dump.print; split <;> exact ⟨_, _, rfl⟩
    have hr : run fuel flags (some bytes) =
        (if flags.unordered then match Unordered.interpretProto p with
          | .error e => .exit 1 [] [.failedToInterpret e]
          | .ok v => Dump.print v.json
        else Dump.print p.json) := by
      simp only [run, Utf8.parseBytes]
      rw [show Dump.options flags = [withDebug flags.debug, withPermissive flags.permissive,
        withFilename (base flags.proto)] from rfl, hp]
      rfl
    cases hu : flags.unordered with
    | false =>
      obtain ⟨out, err, h1⟩ := hprint p.json
      exact ⟨out, err, by simp, fuel, by rw [hr, hu, ← h1]; rfl⟩
    | true =>
      obtain ⟨u, hi⟩ := hi hu
      obtain ⟨out, err, h1⟩ := hprint u.json
      exact ⟨out, err, by simp, fuel, by rw [hr, hu, hi, ← h1]; rfl⟩

/-- C72: any other exit code is 1; then nothing is printed, and a message tells the failure. -/
theorem dump_failure {flags : Flags} {file : Option (List Nat)} {c : Nat} {out : Str} {err : List Dump.Message}
    (h : Runs flags file (.exit c out err)) (hc : c ≠ 0) : c = 1 ∧ out = [] ∧ err.length = 1 := by
  rcases runs_cases h with ⟨_, e⟩ | ⟨b, hb, ⟨_, e, _⟩ | ⟨e, _⟩ | ⟨p, hp, ⟨hu, e⟩ | ⟨hu, u, hi, e⟩ | ⟨_, _, _, e⟩⟩⟩
  · injection e with h1 h2 h3; subst h1 h2 h3; exact ⟨rfl, rfl, rfl⟩
  · injection e with h1 h2 h3; subst h1 h2 h3; exact ⟨rfl, rfl, rfl⟩
  · cases e
  · exact absurd (print_exit e).1 hc
  · exact absurd (print_exit e).1 hc
  · injection e with h1 h2 h3; subst h1 h2 h3; exact ⟨rfl, rfl, rfl⟩

example : (match run 20 {} (some (encode c!"message ")) with
    | .exit c out err => (c, out, err.length)
    | _ => (2, [], 0)) = (1, [], 1) := by
  decide +kernel

/-- C72: a file that cannot be opened gives the exit code 1, under all flags. -/
theorem dump_unopened (flags : Flags) {r : Ran} (h : Runs flags none r) :
    r = .exit 1 [] [.failedToOpen flags.proto] := by
  rcases runs_cases h with ⟨_, e⟩ | ⟨b, hb, _⟩
  · exact e
  · simp at hb

/-- C72: the run of the command on a file has only one end. -/
theorem runs_unique {flags : Flags} {file : Option (List Nat)} {r r' : Ran} (h : Runs flags file r)
    (h' : Runs flags file r') : r = r' := by
  have pu := fun {bytes : List Nat} {o o' : Outcome Proto} (h1 : Parses (Utf8.decode bytes) (Dump.options flags) o)
    (h2 : Parses (Utf8.decode bytes) (Dump.options flags) o') => parses_unique h1 h2
  rcases runs_cases h with ⟨hf, e⟩ | ⟨b, hf, h1⟩
  · rcases runs_cases h' with ⟨_, e'⟩ | ⟨b', hf', _⟩
    · rw [e, e']
    · rw [hf] at hf'; simp at hf'
  · rcases runs_cases h' with ⟨hf', _⟩ | ⟨b', hf', h1'⟩
    · rw [hf] at hf'; simp at hf'
    · rw [hf] at hf'; cases hf'
      rcases h1 with ⟨x, e, h1⟩ | ⟨e, h1⟩ | ⟨p, h1, h2⟩ <;>
        rcases h1' with ⟨x', e', h1'⟩ | ⟨e', h1'⟩ | ⟨p', h1', h2'⟩ <;> have := pu h1 h1' <;>
        first | (cases this; done) | skip
      · injection this with this; rw [e, e', this]
      · rw [e, e']
      · injection this with this
        subst this
        rcases h2 with ⟨hu, e⟩ | ⟨hu, u, hi, e⟩ | ⟨hu, u, hi, e⟩ <;>
          rcases h2' with ⟨hu', e'⟩ | ⟨hu', u', hi', e'⟩ | ⟨hu', u', hi', e'⟩ <;> simp_all

/-- C72: the name in the positions is the last component of the path. -/
theorem base_name (dir name : Str) (h : name ≠ []) (hs : '/' ∉ name) : base (dir ++ '/' :: name) = name ∧ base name = name := by
  have h1 : name.reverse.dropWhile (· = '/') = name.reverse := by
    cases hr : name.reverse with
    | nil => rfl
    | cons c cs =>
      have : c ∈ name := List.mem_reverse.1 (hr ▸ List.mem_cons_self)
      rw [List.dropWhile_cons_of_neg]
      simp
      rintro rfl
      exact hs this
  have h2 : ∀ t, (name.reverse ++ '/' :: t).dropWhile (· = '/') = name.reverse ++ '/' :: t := by
    intro t
    cases hr : name.reverse with
    | nil => simp at hr; exact absurd hr h
    | cons c cs =>
      have : c ∈ name := List.mem_reverse.1 (hr ▸ List.mem_cons_self)
      rw [List.cons_append, List.dropWhile_cons_of_neg]
      simp
      rintro rfl
      exact hs this
  have h3 : ∀ x ∈ name.reverse, (decide (x ≠ '/')) = true := by
    intro x hx
    simp only [decide_eq_true_eq]
    rintro rfl
    exact hs (List.mem_reverse.1 hx)
  constructor
  · rw [base, if_neg (by simp)]
    simp only [List.reverse_append, List.reverse_cons, List.append_assoc, List.singleton_append]
    rw [h2, List.takeWhile_append_of_pos h3]
    simp [h]
  · rw [base, if_neg h]
    simp only [h1]
    have : name.reverse.takeWhile (· ≠ '/') = name.reverse := by
      have := List.takeWhile_append_of_pos (l₂ := []) h3
      simpa using this
    rw [this]
    simp [h]

/-- The flags that are not given: main.go:14-19. -/
example : ({} : Flags) = { proto := c!"_testdata/simple.proto", debug := false, permissive := true, unordered := false } := by
  decide

example : base c!"a/b//c.proto" = c!"c.proto" ∧ base c!"a/b/" = c!"b" ∧ base c!"" = c!"." ∧ base c!"//" = c!"/" := by decide

/-- The value that a run prints of an accepted file. -/
theorem accepted_run {flags : Flags} {bytes : List Nat} {p : Proto} (hp : Parsed flags bytes p)
    (hi : flags.unordered = true → ∃ u, Unordered.interpretProto p = .ok u) :
    ∃ j, Runs flags (some bytes) (Dump.print j) ∧
      j = if flags.unordered then (unProto p).json else p.json := by
  obtain ⟨out, err, h⟩ := dump_code.2 ⟨p, hp, hi⟩
  rcases runs_cases h with ⟨_, e⟩ | ⟨b, hb, ⟨_, e, _⟩ | ⟨e, _⟩ | ⟨p', hp', h'⟩⟩
  · simp at e
  · simp at e
  · cases e
  · cases hb
    have := parses_unique hp hp'
    injection this with this
    subst this
    rcases h' with ⟨hu', e⟩ | ⟨hu', u, hu, e⟩ | ⟨hu', e', he, _⟩
    · exact ⟨_, e ▸ h, by simp [hu']⟩
    · exact ⟨_, e ▸ h, by simp [hu', unordered_sorts hu]⟩
    · obtain ⟨u, hu⟩ := hi hu'
      rw [hu] at he
      cases he

/-- C72: what is accepted (and with `-unordered` can be interpreted) is printed, if bodies are nested in less than
4996 levels (with `-unordered`: 3331 levels).  Missing: deeper files, see `dump_silent`. -/
theorem dump_prints_partial {flags : Flags} {bytes : List Nat} {p : Proto} (hp : Parsed flags bytes p)
    (hi : flags.unordered = true → ∃ u, Unordered.interpretProto p = .ok u)
    (hl : allLevels p.protoBody < if flags.unordered then 3331 else 4996) :
    ∃ out, Runs flags (some bytes) (.exit 0 out []) ∧ out ≠ [] := by
  obtain ⟨j, h, hj⟩ := accepted_run hp hi
  have hd : j.depth ≤ maxNestingDepth := by
    unfold maxNestingDepth
    cases hu : flags.unordered with
    | true => simp only [hu, if_true] at hj hl; have := unProto_depth p; rw [hj]; omega
    | false => simp only [hu] at hj hl; have := proto_depth p; rw [hj]; simp at hl ⊢; omega
  cases hm : marshalIndent j with
  | some out =>
    simp only [Dump.print, hm] at h
    exact ⟨out, h, marshalIndent_ne hm⟩
  | none =>
    unfold marshalIndent at hm
    split at hm <;> simp at hm

/-- C72 is violated by deeper files: above 4998 levels (with `-unordered`: above 3332 levels of messages) nothing is
printed, though the file is accepted and the exit code is 0. -/
theorem dump_silent {flags : Flags} {bytes : List Nat} {p : Proto} (hp : Parsed flags bytes p)
    (hi : flags.unordered = true → ∃ u, Unordered.interpretProto p = .ok u)
    (hl : if flags.unordered then 3332 < messageLevels p.protoBody else 4998 < allLevels p.protoBody) :
    Runs flags (some bytes) (.exit 0 [] [.failedToMarshal]) := by
  obtain ⟨j, h, hj⟩ := accepted_run hp hi
  have hd : maxNestingDepth < j.depth := by
    unfold maxNestingDepth
    cases hu : flags.unordered with
    | true => simp only [hu, if_true] at hj hl; have := unProto_deep p; rw [hj]; omega
    | false => simp only [hu] at hj hl; have := proto_deep p; rw [hj]; simp at hl ⊢; omega
  cases hm : marshalIndent j with
  | some out =>
    unfold marshalIndent at hm
    split at hm <;> simp at hm
    omega
  | none =>
    simp only [Dump.print, hm] at h
    exact h

/-! ### There are files of every depth -/

mutual

theorem levels_bare : ∀ v : Visitee, levels (bare v) = levels v
  | .message ⟨_, body, _, _, _, _⟩ => by simp [bare, levels, levels_bareAll body]
  | .enum ⟨_, body, _, _, _, _⟩ => by simp [bare, levels, levels_bareAll body]
  | .service ⟨_, body, _, _, _, _⟩ => by simp [bare, levels, levels_bareAll body]
  | .extend ⟨_, body, _, _, _, _⟩ => by simp [bare, levels, levels_bareAll body]
  | .groupField ⟨_, _, _, _, body, _, _, _, _, _⟩ => by simp [bare, levels, levels_bareAll body]
  | .nil | .comment _ | .importStmt _ | .package _ | .option _ | .emptyStatement _ | .field _ | .enumField _ | .oneof _
  | .mapField _ | .reserved _ | .extensions _ | .rpc _ => by simp [bare, levels]

theorem levels_bareAll : ∀ vs : List Visitee, allLevels (bareAll vs) = allLevels vs
  | [] => rfl
  | v :: vs => by
    have h1 := levels_bare v
    have h2 := levels_bareAll vs
    unfold bareAll
    split
    · next c => simp [allLevels, levels, h2]
    · simp [allLevels, h1, h2]

end

theorem messageLevels_bareAll : ∀ vs : List Visitee, messageLevels (bareAll vs) = messageLevels vs
  | [] => rfl
  | .message ⟨_, body, _, _, _, _⟩ :: vs => by
    simp [bareAll, bare, messageLevels, messageLevels_bareAll body, messageLevels_bareAll vs]
  | .nil :: vs | .comment _ :: vs | .importStmt _ :: vs | .package _ :: vs | .option _ :: vs | .emptyStatement _ :: vs
  | .field _ :: vs | .enumField _ :: vs | .oneof _ :: vs | .mapField _ :: vs | .reserved _ :: vs | .extensions _ :: vs
  | .rpc _ :: vs | .enum _ :: vs | .service _ :: vs | .extend _ :: vs | .groupField _ :: vs => by
    simp [bareAll, bare, messageLevels, messageLevels_bareAll vs]

theorem mem_bareAll {v : Visitee} : ∀ {vs : List Visitee}, v ∈ vs → (∀ c, v ≠ .comment c) → bare v ∈ bareAll vs
  | u :: vs, h, hc => by
    unfold bareAll
    rcases List.mem_cons.1 h with rfl | h
    · split
      · next c => exact absurd rfl (hc c)
      · simp
    · have := mem_bareAll h hc
      split
      · exact this
      · exact List.mem_cons_of_mem _ this

/-- `message M { message M { .. } }` -/
def nested : Nat → Visitee
  | 0 => .message { messageName := c!"M", messageBody := [], info := {} }
  | n + 1 => .message { messageName := c!"M", messageBody := [nested n], info := {} }

def nestedWords : Nat → List Str
  | 0 => [c!"message", c!"M", c!"{", c!"}"]
  | n + 1 => [c!"message", c!"M", c!"{"] ++ nestedWords n ++ [c!"}"]

theorem nested_toks (G : Gram) : ∀ (n : Nat) (k : Ctx), k = .file ∨ k = .message →
    Toks G k (nested n) ((nestedWords n).map tokOf)
  | 0, k, hk => .message k _ ([c!"message", c!"M", c!"{"].map tokOf) [] ([c!"}"].map tokOf) hk rfl (word_of (by decide))
      (.nil _) (.inl rfl) (spans_tokOf (ws := [c!"message", c!"M", c!"{", c!"}"]) (by simp))
  | n + 1, k, hk => by
    have h := nested_toks G n .message (.inr rfl)
    have hb : Spec.Body G .message [nested n] ((nestedWords n).map tokOf) := by
      have := Spec.Body.cons (G := G) .message _ _ _ _ h (.nil _) (fun _ _ _ => by simp [words])
      simpa using this
    have := Toks.message (G := G) k { messageName := c!"M", messageBody := [nested n], info := {} }
      ([c!"message", c!"M", c!"{"].map tokOf) _ ([c!"}"].map tokOf) hk rfl (word_of (by decide)) hb (.inl rfl)
      (by
        have := spans_tokOf (ws := [c!"message", c!"M", c!"{"] ++ nestedWords n ++ [c!"}"]) (by simp)
        simpa using this)
    simpa [nested, nestedWords] using this

theorem nested_levels : ∀ n, levels (nested n) = n + 1
  | 0 => rfl
  | n + 1 => by simp [nested, levels, allLevels, nested_levels n]

theorem nested_words : ∀ n, ∀ w ∈ nestedWords n, w ∈ [c!"message", c!"M", c!"{", c!"}"]
  | 0 => by simp [nestedWords]
  | n + 1 => by
    intro w hw
    simp only [nestedWords, List.mem_append] at hw
    rcases hw with (hw | hw) | hw
    · simp at hw ⊢; rcases hw with h | h | h <;> simp [h]
    · exact nested_words n w hw
    · simp at hw ⊢; simp [hw]

theorem nested_messageLevels : ∀ n, messageLevels [nested n] = n + 1
  | 0 => by simp [nested, messageLevels]
  | n + 1 => by simp [nested, messageLevels, nested_messageLevels n]

/-- There is an accepted file with any number of levels. -/
theorem nested_parses (flags : Flags) (n : Nat) :
    ∃ p, Parsed flags (encode (spaced (nestedWords n))) p ∧ allLevels p.protoBody = n + 1 ∧
      messageLevels p.protoBody = n + 1 ∧ ∃ u, Unordered.interpretProto p = .ok u := by
  let options := [withDebug flags.debug, withPermissive flags.permissive, withFilename (base flags.proto)]
  have hb : Spec.Body (grammarOf options) .file [nested n] ((nestedWords n).map tokOf) := by
    have := Spec.Body.cons (G := grammarOf options) .file _ _ _ _ (nested_toks _ n .file (.inl rfl)) (.nil _)
      (fun _ _ _ => by simp [words])
    simpa using this
  have hq := ProtoToks.mk (G := grammarOf options) { syntax_ := none, edition := none, protoBody := [nested n], metaFilename := [] }
    [] [] [] _ (.inl rfl) .none .none hb
  simp only [List.nil_append] at hq
  have hnil : Visitee.nil ∉ [nested n] := by cases n <;> simp [nested]
  obtain ⟨p, h1, h2⟩ := print_parse (options := options) hq hnil (by
    rw [words_tokOf]
    intro w hw
    have key : ∀ w ∈ [c!"message", c!"M", c!"{", c!"}"], ((w.headD '/').toNat ∉ whiteSpace ∧ w.headD '/' ≠ '/' ∧
      w.headD '/' ≠ '0') ∧ ∀ c ∈ w, c ≠ eof := by decide
    have := key w (nested_words n w hw)
    exact ⟨standing_of this.1, this.2⟩)
  rw [words_tokOf] at h1
  have h3 : bareAll p.protoBody = bareAll [nested n] := by
    have h3 : bareAll p.protoBody = withNils (bareAll [nested n]) := congrArg Proto.protoBody h2
    have : withNils (bareAll [nested n]) = bareAll [nested n] := by
      obtain ⟨x, hx⟩ : ∃ x, nested n = .message x := by cases n <;> exact ⟨_, rfl⟩
      obtain ⟨_, _, _, _, _, _⟩ := x
      rw [hx]
      rfl
    rw [h3, this]
  have hm : ∀ v ∈ p.protoBody, (∀ c, v ≠ .comment c) → bare v = bare (nested n) := by
    intro v hv hc
    have := mem_bareAll hv hc
    rw [h3] at this
    have e : bareAll [nested n] = [bare (nested n)] := by cases n <;> rfl
    rw [e] at this
    simpa using this
  have hx : ∃ x, bare (nested n) = .message x := by cases n <;> exact ⟨_, rfl⟩
  obtain ⟨x, hx⟩ := hx
  refine ⟨p, ?_, ?_, ?_, ?_⟩
  · unfold Parsed
    rw [decode_encode]
    exact h1
  · rw [← levels_bareAll, h3, levels_bareAll]
    simp [allLevels, nested_levels]
  · rw [← messageLevels_bareAll, h3, messageLevels_bareAll, nested_messageLevels]
  · obtain ⟨_, fuel, h1⟩ := h1
    refine (parsed_unordered_partial h1 rfl).2 ⟨?_, ?_⟩
    · rintro ⟨e, he⟩
      have := hm _ he (by simp)
      rw [hx] at this
      simp [bare] at this
    · rintro y hy
      obtain ⟨_, _, _, _, _, _⟩ := y
      have := hm _ hy (by simp)
      rw [hx] at this
      simp [bare] at this

/-- C72 is violated: a file of five thousand nested messages is accepted, the exit code is 0, and nothing is printed. -/
theorem dump_violation : ∃ bytes, (∃ p, Parsed {} bytes p) ∧ Runs {} (some bytes) (.exit 0 [] [.failedToMarshal]) := by
  obtain ⟨p, h1, h2, _, h3⟩ := nested_parses {} 4999
  exact ⟨_, ⟨p, h1⟩, dump_silent h1 (fun _ => h3) (by simp [h2])⟩

/-- C72 is violated with `-unordered` already by 3333 nested messages. -/
theorem dump_unordered_violation : ∃ bytes p u, Parsed { unordered := true } bytes p ∧
    Unordered.interpretProto p = .ok u ∧
    Runs { unordered := true } (some bytes) (.exit 0 [] [.failedToMarshal]) := by
  obtain ⟨p, h1, h2, h3, u, h4⟩ := nested_parses { unordered := true } 3332
  exact ⟨_, p, u, h1, h4, dump_silent h1 (fun _ => ⟨u, h4⟩) (by simp [h3])⟩

/-- The hypotheses of `dump_prints_partial` are met by files of every lower depth. -/
example (n : Nat) (h : n < 4995) : ∃ out, Runs {} (some (encode (spaced (nestedWords n)))) (.exit 0 out []) ∧ out ≠ [] := by
  obtain ⟨p, h1, h2, _, h3⟩ := nested_parses {} n
  exact dump_prints_partial h1 (fun _ => h3) (by simp [h2]; omega)

example (n : Nat) (h : n < 3330) :
    ∃ out, Runs { unordered := true } (some (encode (spaced (nestedWords n)))) (.exit 0 out []) ∧ out ≠ [] := by
  obtain ⟨p, h1, h2, _, h3⟩ := nested_parses { unordered := true } n
  exact dump_prints_partial h1 (fun _ => h3) (by simp [h2]; omega)

end Verif.Props
