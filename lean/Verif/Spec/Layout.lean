import Verif.Spec.Position

/-!
# Layouts

A layout of a list of tokens is a text in which the tokens stand in order, separated by gaps (white
space and comments).
-/

namespace Verif.Spec

/-- A token in a text: its spelling and its position. -/
structure Tok where
  text : Str
  pos : Position
  deriving DecidableEq, Repr

/-- A text that does not start with white space or a comment. -/
def Solid (x : Str) : Prop :=
  NotNext White x ∧ ∀ raw text rest, x = raw ++ rest → ¬ Comment rest raw text

/-- The token `w` before the text `rest` is a whole one: a word ends where no rune of a word follows, and no
float has a superfluous leading zero (`01.5` is the two tokens `01` and `.5`). -/
def Sharp (w rest : Str) : Prop := (Word w → NotNext WordChar rest) ∧ (FloatLit w → ¬ LeadingZero w)

/-- `Lay p rest ts c`: before the text `rest`, the text `c`, which starts at position `p`, consists of
the tokens `ts` with a gap before each of them and a gap at the end.  A word ends where no more
letters, digits or underscores follow. -/
inductive Lay : SPos → Str → List Tok → Str → Prop
  | nil {p : SPos} {rest : Str} (g : Str) (cs : List (Str × Str)) : Gap true rest g cs →
      Lay p rest [] g
  | cons {p : SPos} {rest : Str} (g : Str) (cs : List (Str × Str)) (w : Str) (ts : List Tok)
      (c : Str) : Gap true (w ++ (c ++ rest)) g cs → w ≠ [] → Solid (w ++ (c ++ rest)) →
      Sharp w (c ++ rest) →
      Lay (p.advanceAll (g ++ w)) rest ts c →
      Lay p rest (⟨w, (p.advanceAll g).p⟩ :: ts) (g ++ (w ++ c))

/-- `Layout file before after ts c`: in the file `file`, between the texts `before` and `after`, the text
`c` consists of the tokens `ts` with a gap before each of them and a gap at the end, and the position
of each token is that of its first rune. -/
inductive Layout (file : Str) : Str → Str → List Tok → Str → Prop
  | nil {before after : Str} (g : Str) (cs : List (Str × Str)) : Gap true after g cs →
      Layout file before after [] g
  | cons {before after : Str} (g : Str) (cs : List (Str × Str)) (w : Str) (ts : List Tok) (c : Str) :
      Gap true (w ++ (c ++ after)) g cs → w ≠ [] → Solid (w ++ (c ++ after)) →
      Sharp w (c ++ after) → Layout file (before ++ g ++ w) after ts c →
      Layout file before after (⟨w, posAt file (before ++ g)⟩ :: ts) (g ++ (w ++ c))

/-- The spellings. -/
def words (ts : List Tok) : List Str := ts.map Tok.text

/-- `info` gives the positions of the first and the last of the tokens. -/
def Spans (ts : List Tok) (info : Meta) : Prop :=
  (∃ t us, ts = t :: us ∧ t.pos = info.pos) ∧ ∃ us t, ts = us ++ [t] ∧ t.pos = info.lastPos

end Verif.Spec
