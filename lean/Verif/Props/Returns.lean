import Verif.Props.Terminate
import Verif.Props.Bound
import Verif.Proofs.PanicSite

/-!
# When Parse returns (C70)

C19 and C20 together: what an input must contain on which `Parse` neither returns a tree nor an error.
-/

set_option backward.isDefEq.respectTransparency false
set_option backward.dsimp.instances true

namespace Verif.Props
open Spec Scanner Lexer

/-- C20, for inputs that do not contain both `group` and `/*`: if `Parse` panics then the text contains a semicolon and
behind it, on the same line, the start of a comment.  Missing: inputs that contain both. -/
theorem panic_semicolon_partial {input : Str} (hn : NulFree input) (ht : ¬ (c!"group" <:+: input ∧ c!"/*" <:+: input))
    {options : List ParseOpt} (h : Parses input options .panic) : SemiComment input := by
  obtain ⟨_, fuel, h⟩ := h
  have h := (parse_mono (Nat.le_add_right fuel (input.length + 1)) (by rw [h]; simp)).trans h
  have hb : Mild input := by
    by_cases hg : c!"group" <:+: input
    · exact .inl (fun hb => ht ⟨hg, hb⟩)
    · exact .inr hg
  have := Parser.mild_parseProto (H := fun _ => SemiComment input) (cfg := cfgOf (fuel + (input.length + 1)) options)
    (good_new (f := fileOf options) hn) hb (by show input.length < fuel + (input.length + 1); omega) id
  rw [show Parser.parseProto (cfgOf (fuel + (input.length + 1)) options) (Lexer.new input (fileOf options)) =
    runProto (fuel + (input.length + 1)) (configOf options) input from rfl, parse_halt h] at this
  exact this

/-- C70: `Parse` returns a tree or an error, unless the text contains both `group` and `/*`, or a semicolon and
behind it, on the same line, the start of a comment. -/
theorem parse_returns {input : Str} (hn : NulFree input) (ht : ¬ (c!"group" <:+: input ∧ c!"/*" <:+: input))
    (hs : ¬ SemiComment input) (options : List ParseOpt) :
    (∃ p, Parses input options (.ok p)) ∨ ∃ e, Parses input options (.error e) := by
  have : ∃ o, Parses input options o :=
    Classical.byContradiction fun h => ht (nonterminating_input hn h)
  obtain ⟨o, h⟩ := this
  cases o with
  | ok p => exact .inl ⟨p, h⟩
  | error e => exact .inr ⟨e, h⟩
  | panic => exact absurd (panic_semicolon_partial hn ht h) hs
  | more => exact absurd rfl h.1

/-- C70: on a text without comments `Parse` returns a tree or an error. -/
theorem uncommented_returns {input : Str} (hn : NulFree input) (h1 : ¬ c!"//" <:+: input) (h2 : ¬ c!"/*" <:+: input)
    (options : List ParseOpt) : (∃ p, Parses input options (.ok p)) ∨ ∃ e, Parses input options (.error e) := by
  refine parse_returns hn (fun h => h2 h.2) ?_ options
  rintro ⟨c, g, k, rest, rfl, _, rfl | rfl⟩
  · exact h1 ⟨c ++ ';' :: g, rest, by simp⟩
  · exact h2 ⟨c ++ ';' :: g, rest, by simp⟩

instance (c : Char) : Decidable (White c) := inferInstanceAs (Decidable (c.toNat ∈ whiteSpace))

/-- Behind white space on the line there is the start of a comment. -/
def commentAhead (t : Str) : Bool :=
  match t.dropWhile (fun x => decide (White x ∧ x ≠ '\n')) with
  | '/' :: '/' :: _ => true
  | '/' :: '*' :: _ => true
  | _ => false

/-- `SemiComment` is decided by this. -/
def semiComment : Str → Bool
  | [] => false
  | c :: t => (c == ';' && commentAhead t) || semiComment t

theorem semiComment_of {t : Str} (h : SemiComment t) : semiComment t = true := by
  obtain ⟨c, g, k, rest, rfl, h1, h2⟩ := h
  induction c with
  | nil =>
    have : commentAhead (g ++ '/' :: k :: rest) = true := by
      unfold commentAhead
      have e : ∀ g : Str, (∀ x ∈ g, White x ∧ x ≠ '\n') →
          (g ++ '/' :: k :: rest).dropWhile (fun x => decide (White x ∧ x ≠ '\n')) = '/' :: k :: rest := by
        intro g
        induction g with
        | nil =>
          intro _
          have : ¬ White '/' := by unfold White; decide
          simp [List.dropWhile, this]
        | cons x g ih =>
          intro h
          have hx := h x (by simp)
          simp only [List.cons_append, List.dropWhile, hx.1, hx.2, ne_eq, not_false_eq_true, and_self, decide_true]
          exact ih (fun y hy => h y (by simp [hy]))
      rw [e g h1]
      rcases h2 with rfl | rfl <;> rfl
    simp [semiComment, this]
  | cons x c ih => simp [semiComment, ih]

/-- Texts of both kinds, with a failed group that is recovered from; the second has comments. -/
example : (NulFree c!"message M { group G = 1 { message ; }" ∧ ¬ c!"//" <:+: c!"message M { group G = 1 { message ; }" ∧
      ¬ c!"/*" <:+: c!"message M { group G = 1 { message ; }") ∧
    accepts (fun _ => true) (parse 38 c!"message M { group G = 1 { message ; }") = true ∧
    NulFree c!"message M { // c\n group G = 1 { message ; }\n// d" ∧
    ¬ (c!"group" <:+: c!"message M { // c\n group G = 1 { message ; }\n// d" ∧
      c!"/*" <:+: c!"message M { // c\n group G = 1 { message ; }\n// d") ∧
    ¬ SemiComment c!"message M { // c\n group G = 1 { message ; }\n// d" ∧
    accepts (fun _ => true) (parse 60 c!"message M { // c\n group G = 1 { message ; }\n// d") = true := by
  refine ⟨⟨by unfold NulFree; decide, by decide +kernel, by decide +kernel⟩, by decide +kernel, by unfold NulFree; decide,
    by decide +kernel, fun h => absurd (semiComment_of h) (by decide +kernel), by decide +kernel⟩

/-- The condition of C70 on comments is needed: here is a comment behind a semicolon, and a panic. -/
example : NulFree c!"syntax = 'proto2';; // c" ∧ SemiComment c!"syntax = 'proto2';; // c" ∧
    Parses c!"syntax = 'proto2';; // c" [] .panic := by
  refine ⟨by unfold NulFree; decide, ⟨c!"syntax = 'proto2';", c!" ", '/', c!" c", by decide, ?_, .inl rfl⟩, by simp, 20,
    panic_violation.1⟩
  intro x hx
  simp only [List.mem_singleton] at hx
  subst hx
  exact ⟨by unfold White; decide, by decide⟩

end Verif.Props
