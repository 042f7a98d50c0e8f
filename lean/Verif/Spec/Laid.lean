import Verif.Spec.Grammar

/-!
# Layouts of a list of spellings

Which texts are layouts of a list of spellings: the spellings in order, separated by gaps (white space
and comments), where two spellings that would be read as one are kept apart.
-/

namespace Verif.Spec

/-- The spelling `w` stands on its own before the text `c`: it does not start like a comment, a word or
number does not run into what follows, and it is not one of the floats with superfluous leading zeros
that the scanner does not read. -/
structure Apart (w c : Str) : Prop where
  ne : w ≠ []
  solid : Solid (w ++ c)
  slash : w.head? ≠ some '/'
  word : Word w ∨ Number w → NotNext WordChar c
  dot : Number w → ¬ Word w → NotNext (· = '.') c
  zero : FloatLit w → ¬ LeadingZero w

/-- `Laid ws t`: the text `t` consists of the spellings `ws` with a gap before each of them and a gap
at the end. -/
inductive Laid : List Str → Str → Prop
  | nil (g : Str) (cs : List (Str × Str)) : Gap true [] g cs → Laid [] g
  | cons (g : Str) (cs : List (Str × Str)) (w : Str) (ws : List Str) (c : Str) :
      Gap true (w ++ c) g cs → Apart w c → Laid ws c → Laid (w :: ws) (g ++ (w ++ c))

/-- `After ws t ws' t'`: in the layout `t` of the spellings `ws`, of which `ws'` are the last, `t'` is the
text that follows the spelling before them. -/
inductive After : List Str → Str → List Str → Str → Prop
  | refl (ws : List Str) (t : Str) : After ws t ws t
  | step (g : Str) (cs : List (Str × Str)) (w : Str) (ws : List Str) (c : Str) {ws' : List Str} {t' : Str} :
      Gap true (w ++ c) g cs → Apart w c → After ws c ws' t' → After (w :: ws) (g ++ (w ++ c)) ws' t'

/-- The text starts with a comment, but for white space other than line breaks. -/
def Trailed (c : Str) : Prop :=
  ∃ w raw text rest, c = w ++ (raw ++ rest) ∧ (∀ x ∈ w, White x ∧ x ≠ '\n') ∧ Comment rest raw text

/-- A semicolon of its own in the body of a file: complete elements stand before it, and in permissive
mode no right curly that it belongs to.  The tokens `us` follow it. -/
def LoneIn (G : Gram) (ts us : List Tok) : Prop :=
  ∃ vs ts1 s, ts = ts1 ++ s :: us ∧ s.text = c!";" ∧ Body G .file vs ts1 ∧
    (G.permissive = true → (words ts1).getLast? ≠ some c!"}")

/-- A semicolon of its own in a file: what stands before it is a file.  The tokens `us` follow it. -/
def LoneSemi (G : Gram) (ts us : List Tok) : Prop :=
  ∃ q ts1 s, ts = ts1 ++ s :: us ∧ s.text = c!";" ∧ ProtoToks G q ts1 ∧
    (G.permissive = true → (words ts1).getLast? ≠ some c!"}")

/-- In the layout `t` of the tokens `ts`, a semicolon of its own has a comment behind it on its line. -/
def CommentBehindSemi (G : Gram) (ts : List Tok) (t : Str) : Prop :=
  ∃ us c, LoneSemi G ts us ∧ After (words ts) t (words us) c ∧ Trailed c

end Verif.Spec
