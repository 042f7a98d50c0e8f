import Verif.Spec.Nodes
import Verif.Spec.Grammar

/-!
# Beginnings of files

What may stand before the position of a syntax error.
-/

namespace Verif.Spec

/-- Some file starts with these spellings. -/
def Begun (G : Gram) (ws : List Str) : Prop := ∃ q ts more, ProtoToks G q ts ∧ words ts = ws ++ more

/-- One spelling too many, behind the right curly of a declaration, which ends its list: some file starts with what is
before it, followed by the end of that list. -/
def Late (G : Gram) (ws : List Str) : Prop :=
  ∃ us w, ws = us ++ [w] ∧ us.getLast? = some c!"}" ∧ Begun G (us ++ [c!"]"])

/-- The position `p` follows tokens that begin a file, up to the gap (white space and comments) behind them. -/
def Blames (G : Gram) (file input : Str) (p : Position) : Prop :=
  ∃ c g rest ts cs, input = c ++ (g ++ rest) ∧ Layout file [] (g ++ rest) ts c ∧ Gap true rest g cs ∧
    p = posAt file (c ++ g) ∧ (Begun G (words ts) ∨ Late G (words ts))

end Verif.Spec
