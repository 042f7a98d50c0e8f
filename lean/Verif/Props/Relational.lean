import Verif.Proofs.Mark
import Verif.Props.Parse

set_option backward.isDefEq.respectTransparency false
set_option backward.dsimp.instances true

/-!
# Two calls of `Parse` compared

No hypothesis on the input: these hold with NUL characters, with groups, and for calls that fail or panic.
-/

namespace Verif.Props

open Verif Spec

/-! ## The bound on the iterations

`parse_mono` is in `Props/Bound.lean`. -/

/-- C52: a call of `Parse` has at most one outcome. -/
theorem parses_unique {input : Str} {options : List ParseOpt} {o o' : Outcome Proto}
    (h : Parses input options o) (h' : Parses input options o') : o = o' := by
  obtain ⟨h1, n, rfl⟩ := h
  obtain ⟨h2, m, rfl⟩ := h'
  rcases Nat.le_total n m with hl | hl
  · exact (parse_mono hl h1).symm
  · exact parse_mono hl h2

theorem accepts_parses {f : Proto → Bool} {n : Nat} {input : Str} {options : List ParseOpt}
    (h : accepts f (parse n input options) = true) : ∃ p, Parses input options (.ok p) ∧ f p = true := by
  unfold accepts at h
  split at h
  · next p e => exact ⟨p, ⟨nofun, n, e⟩, h⟩
  · cases h

/-- A larger bound is needed for longer bodies, and a bound that suffices is one that `parse_mono` is about. -/
example : (match parse 1 c!"message M { } message N { }" with | .more => true | _ => false) = true ∧
    accepts (fun p => decide (p.protoBody.length = 2)) (parse 3 c!"message M { } message N { }") = true :=
  ⟨by decide +kernel, by decide +kernel⟩

theorem rel_ne_more {R : Proto → Proto → Prop} {E : Err → Err → Prop} {o o' : Outcome Proto}
    (h : OutcomeRel R E o o') : o' ≠ .more := by
  cases h <;> exact nofun

theorem rel_map {R R' : Proto → Proto → Prop} {E E' : Err → Err → Prop} {o o' : Outcome Proto}
    (h : OutcomeRel R E o o') (hR : ∀ p q, R p q → R' p q) (hE : ∀ e f, E e f → E' e f) :
    OutcomeRel R' E' o o' := by
  cases h with
  | ok h => exact .ok (hR _ _ h)
  | error h => exact .error (hE _ _ h)
  | panic => exact .panic

theorem error_parses {n : Nat} {input : Str} {options : List ParseOpt}
    (h : (match parse n input options with | .error _ => true | _ => false) = true) :
    ∃ e, Parses input options (.error e) := by
  split at h
  · next e he => exact ⟨e, nofun, n, he⟩
  · cases h

/-! ## File names -/

theorem renamed_at_eq (f g : Str) : (Link.renamed f g).at = Renamed f g := by
  funext p q
  refine propext ⟨Link.renamed_at, fun h => ?_⟩
  exact ⟨⟨p, []⟩, ⟨q, []⟩, ⟨h.1, by rw [h.2]⟩, rfl, rfl⟩

theorem configOf_snoc (options : List ParseOpt) (o : ParseOpt) : configOf (options ++ [o]) = o (configOf options) := by
  simp [configOf]

/-- C33: two calls that differ in the file name only have outcomes that differ in nothing but the file
names of the positions (and of the file). -/
theorem filename_only {input : Str} {options : List ParseOpt} {f : Str} (g : Str) {o : Outcome Proto}
    (h : Parses input (options ++ [withFilename f]) o) :
    ∃ o', Parses input (options ++ [withFilename g]) o' ∧
      OutcomeRel (AlikeProto (Renamed f g) .both) (AlikeErr (Renamed f g)) o o' := by
  obtain ⟨h1, n, rfl⟩ := h
  have := alike_parse (ρ := Link.renamed f g) (k := .both) (input := input) (n := n) (n' := n)
    (c := configOf (options ++ [withFilename f])) (c' := configOf (options ++ [withFilename g]))
    (by rw [configOf_snoc, configOf_snoc]; rfl)
    (.inl ⟨by rw [configOf_snoc, configOf_snoc]; rfl, by simp⟩) (Nat.le_refl n)
    trivial (by rw [configOf_snoc, configOf_snoc]; exact ⟨rfl, rfl⟩)
  rw [renamed_at_eq] at this
  rcases this with e | h
  · exact absurd e h1
  · exact ⟨parse n input (options ++ [withFilename g]), ⟨rel_ne_more h, n, rfl⟩, h⟩

/-- C33: every position of a tree, of every node and every comment, carries the given name, and so does
the tree; likewise every position in an error. -/
theorem filename_everywhere {input : Str} {options : List ParseOpt} {f : Str} {o : Outcome Proto}
    (h : Parses input (options ++ [withFilename f]) o) :
    OutcomeRel (AlikeProto (Renamed f f) .both) (AlikeErr (Renamed f f)) o o := by
  obtain ⟨o', h', hr⟩ := filename_only f h
  rwa [← parses_unique h h'] at hr

/-- C33: the tree carries the given name. -/
theorem filename_of_file {input : Str} {options : List ParseOpt} {f : Str} {p : Proto}
    (h : Parses input (options ++ [withFilename f]) (.ok p)) : p.metaFilename = f := by
  cases filename_everywhere h with
  | ok h =>
    obtain ⟨q, _, h1, h2, _⟩ := h.metaFilename
    rw [h2, h1.1]

example : ∃ p, Parses c!"// c\nmessage M { }" ([] ++ [withFilename c!"f"]) (.ok p) ∧
    (match p.protoBody with
    | [.message m] => decide (m.info.pos.filename = c!"f") && m.comments.all (fun c => c.info.pos.filename = c!"f")
    | _ => false) = true :=
  accepts_parses (n := 3) (f := fun p => match p.protoBody with
    | [.message m] => decide (m.info.pos.filename = c!"f") && m.comments.all (fun c => c.info.pos.filename = c!"f")
    | _ => false) (by decide +kernel)

example : ∃ o, Parses c!"message M } x" ([] ++ [withFilename c!"f"]) (.error o) :=
  error_parses (n := 4) (by decide +kernel)

/-! ## Comments in bodies -/

/-- C32: two calls that differ in `WithBodyIncludingComments` only: trees equal but for the comments that
are elements of bodies, or the same error, or both panic. -/
theorem body_comments_outcome {input : Str} {options : List ParseOpt} {b : Bool} (b' : Bool)
    {o : Outcome Proto} (h : Parses input (options ++ [withBodyIncludingComments b]) o) :
    ∃ o', Parses input (options ++ [withBodyIncludingComments b']) o' ∧
      OutcomeRel (fun p q => dropProto p = dropProto q) Eq o o' := by
  obtain ⟨h1, n, rfl⟩ := h
  have := alike_parse (ρ := Link.same) (k := .either) (input := input) (n := n) (n' := n)
    (c := configOf (options ++ [withBodyIncludingComments b]))
    (c' := configOf (options ++ [withBodyIncludingComments b']))
    (by rw [configOf_snoc, configOf_snoc]; rfl) (.inr rfl) (Nat.le_refl n)
    trivial (by rw [configOf_snoc, configOf_snoc]; rfl)
  rcases this with e | h
  · exact absurd e h1
  · exact ⟨parse n input (options ++ [withBodyIncludingComments b']), ⟨rel_ne_more h, n, rfl⟩,
      rel_map h (fun _ _ h => alikeProto_drop (fun _ _ => Link.same_at) h)
        (fun _ _ h => h.eq (fun _ _ => Link.same_at))⟩

/-- C32: without the option no comment is an element of a body. -/
theorem no_body_comments {input : Str} {options : List ParseOpt} {p : Proto}
    (h : Parses input (options ++ [withBodyIncludingComments false]) (.ok p)) : dropProto p = p := by
  obtain ⟨h1, n, e⟩ := h
  have := alike_parse (ρ := Link.same) (k := .none) (input := input) (n := n) (n' := n)
    (c := configOf (options ++ [withBodyIncludingComments false]))
    (c' := configOf (options ++ [withBodyIncludingComments false])) rfl
    (.inl ⟨rfl, by rw [configOf_snoc]; nofun⟩) (Nat.le_refl n) trivial rfl
  have e' : Outcome.ofRes (runProto n (configOf (options ++ [withBodyIncludingComments false])) input) = .ok p := e
  rw [e'] at this
  rcases this with h | h
  · cases h
  · cases h with
    | ok h =>
      have := alikeB_none h.protoBody
      unfold dropProto
      rw [this]

/-- C32: the tree without the option is the tree with the option with the comments removed from the bodies. -/
theorem body_comments_only_add {input : Str} {options : List ParseOpt} {p : Proto}
    (h : Parses input (options ++ [withBodyIncludingComments true]) (.ok p)) :
    Parses input (options ++ [withBodyIncludingComments false]) (.ok (dropProto p)) := by
  obtain ⟨o, h', hr⟩ := body_comments_outcome false h
  cases hr with
  | ok hr => rwa [hr, no_body_comments h']

/-- C32: the option does not change which inputs are rejected, nor with which error. -/
theorem body_comments_error {input : Str} {options : List ParseOpt} {e : Err} (b b' : Bool) :
    Parses input (options ++ [withBodyIncludingComments b]) (.error e) →
      Parses input (options ++ [withBodyIncludingComments b']) (.error e) := by
  intro h
  obtain ⟨o, h', hr⟩ := body_comments_outcome b' h
  cases hr with
  | error hr => rwa [hr]

/-- The option does add comments. -/
example : ∃ p, Parses c!"message M { // a\n int32 f = 1;\n // b\n }" ([] ++ [withBodyIncludingComments true]) (.ok p) ∧
    (match p.protoBody with
    | [.message m] => decide (m.messageBody.length = 2)
    | _ => false) = true :=
  accepts_parses (n := 3) (f := fun p => match p.protoBody with
    | [.message m] => decide (m.messageBody.length = 2)
    | _ => false) (by decide +kernel)

/-! ## The byte order mark -/

/-- The text is not white space and comments followed by a byte order mark. -/
def NoMark (t : Str) : Prop := ¬ ∃ g cs r, Gap true (Char.ofNat 0xFEFF :: r) g cs ∧ t = g ++ Char.ofNat 0xFEFF :: r

theorem noMark_lex {t : Str} (h : NoMark t) : (Scanner.lex {} t).token ≠ .bom := by
  intro e
  obtain ⟨g, cs, raw, rest, h1, h2, _, _, h5, h6⟩ := Scanner.lex_lexeme {} t
  rw [e] at h6
  rcases h6 with ⟨_, h6, _⟩ | ⟨_, h6, _⟩
  · generalize (Scanner.lex {} t).text = x at h6
    generalize hb : Token.bom = b at h6
    cases h6 with
    | word _ _ _ _ hw => subst hb; cases hw; rename_i hk _; cases hk
    | punct c _ hp _ =>
      subst hb
      simp only [punctuation, Option.some.injEq] at hp
      subst hp
      exact h ⟨g, cs, rest, h2, h1⟩
    | _ => cases hb
  · cases h6

/-- C35: a byte order mark in front of a text that does not begin with one changes nothing but positions. -/
theorem mark_ignored {t : Str} {options : List ParseOpt} (hn : NulFree t) (hm : NoMark t) {o : Outcome Proto}
    (h : Parses t options o) :
    ∃ o', Parses (Char.ofNat 0xFEFF :: t) options o' ∧
      OutcomeRel (AlikeProto AfterMark .both) (AlikeErr AfterMark) o o' := by
  obtain ⟨h1, n, rfl⟩ := h
  rcases alike_mark (c := configOf options) (n := n) hn (noMark_lex hm) with h | h
  · exact absurd h.1 h1
  · exact ⟨_, ⟨rel_ne_more h, n, rfl⟩, h⟩

/-- C35, the other way round. -/
theorem mark_needless {t : Str} {options : List ParseOpt} (hn : NulFree t) (hm : NoMark t) {o' : Outcome Proto}
    (h : Parses (Char.ofNat 0xFEFF :: t) options o') :
    ∃ o, Parses t options o ∧ OutcomeRel (AlikeProto AfterMark .both) (AlikeErr AfterMark) o o' := by
  obtain ⟨h1, n, rfl⟩ := h
  rcases alike_mark (c := configOf options) (n := n) hn (noMark_lex hm) with h | h
  · exact absurd h.2 h1
  · refine ⟨parse n t options, ⟨?_, n, rfl⟩, h⟩
    intro e
    have e' : Outcome.ofRes (runProto n (configOf options) t) = .more := e
    rw [e'] at h
    generalize Outcome.ofRes (runProto n (configOf options) (markChar :: t)) = o at h
    cases h

/-- The whole shift: offsets by three bytes; columns by one on the first line, not on the next. -/
example : NulFree c!"message M { }\nmessage N { }" ∧ NoMark c!"message M { }\nmessage N { }" ∧
    (∃ p, Parses c!"message M { }\nmessage N { }" [] (.ok p) ∧ (match p.protoBody with
      | [.message m, .message n] => decide (m.info.lastPos = { offset := 12, line := 1, column := 13 }
          ∧ n.info.pos = { offset := 14, line := 2, column := 1 })
      | _ => false) = true) ∧
    ∃ p, Parses (Char.ofNat 0xFEFF :: c!"message M { }\nmessage N { }") [] (.ok p) ∧ (match p.protoBody with
      | [.message m, .message n] => decide (m.info.lastPos = { offset := 15, line := 1, column := 14 }
          ∧ n.info.pos = { offset := 17, line := 2, column := 1 })
      | _ => false) = true := by
  refine ⟨by unfold NulFree; decide, ?_, ?_, ?_⟩
  · rintro ⟨g, cs, r, _, h⟩
    have : Char.ofNat 0xFEFF ∈ c!"message M { }\nmessage N { }" := by rw [h]; simp
    revert this
    decide
  · exact accepts_parses (n := 4) (f := fun p => match p.protoBody with
      | [.message m, .message n] => decide (m.info.lastPos = { offset := 12, line := 1, column := 13 }
          ∧ n.info.pos = { offset := 14, line := 2, column := 1 })
      | _ => false) (by decide +kernel)
  · exact accepts_parses (n := 4) (f := fun p => match p.protoBody with
      | [.message m, .message n] => decide (m.info.lastPos = { offset := 15, line := 1, column := 14 }
          ∧ n.info.pos = { offset := 17, line := 2, column := 1 })
      | _ => false) (by decide +kernel)

/-- `NoMark` cannot be left out: a mark is also accepted behind white space and comments, and only one is;
the comments before it are lost. -/
theorem late_mark : accepts (fun p => match p.protoBody with
      | [.message m] => decide (m.comments = [])
      | _ => false) (parse 3 (c!"// c\n" ++ Char.ofNat 0xFEFF :: c!"message M { }")) = true ∧
    (match parse 3 (Char.ofNat 0xFEFF :: (c!"// c\n" ++ Char.ofNat 0xFEFF :: c!"message M { }")) with
      | .error _ => true | _ => false) = true :=
  ⟨by decide +kernel, by decide +kernel⟩

end Verif.Props
