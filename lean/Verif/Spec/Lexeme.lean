import Verif.Spec.Position

/-!
# Specification of one token

`Lexeme m rest raw t text`: in mode `m`, before the text `rest`, the source `raw` is a token of kind
`t` with text `text`.  `LexError m x`: in mode `m` no token can be read at the start of `x`.
-/

namespace Verif.Spec

/-- The token of a word in a mode. -/
inductive WordClass (m : Mode) (w : Str) : Token → Prop
  | bool : m.bool = true → w = c!"true" ∨ w = c!"false" → WordClass m w .boolLit
  | float : m.number = true → w = c!"inf" ∨ w = c!"nan" → WordClass m w .floatLit
  | keyword (t : Token) : m.keyword = true → spelling t = some w → WordClass m w t
  | ident : ¬ (m.bool = true ∧ (w = c!"true" ∨ w = c!"false")) →
      ¬ (m.number = true ∧ (w = c!"inf" ∨ w = c!"nan")) →
      ¬ (m.keyword = true ∧ ∃ t, spelling t = some w) → WordClass m w .ident

/-- A token. -/
inductive Lexeme (m : Mode) (rest : Str) : Str → Token → Str → Prop
  | eof : rest = [] → Lexeme m rest [] .eof []
  | word (w : Str) (t : Token) : Word w → NotNext WordChar rest → WordClass m w t →
      Lexeme m rest w t w
  | str (w : Str) : m.str = true → StrLit w → Lexeme m rest w .strLit w
  | int (w : Str) : m.number = true → IntLit w → Lexeme m rest w .intLit w
  | float (w : Str) : m.number = true → FloatLit w → ¬ Word w → Lexeme m rest w .floatLit w
  | comment (raw text : Str) : m.comment = true → Comment rest raw text →
      Lexeme m rest raw .comment text
  | punct (c : Char) (t : Token) : punctuation t = some c → (m.number = true → t ≠ .dot) →
      Lexeme m rest [c] t [c]
  | quote (c : Char) : m.str = false → c = '\'' ∨ c = '"' → Lexeme m rest [c] .quote [c]
  | other (c : Char) : (∀ t, punctuation t ≠ some c) → ¬ (c = '\'' ∨ c = '"') → ¬ WordStart c →
      ¬ White c → c ≠ '/' → (m.number = true → c ∉ decimals) → Lexeme m rest [c] .illegal [c]

/-- No token can be read. -/
inductive LexError (m : Mode) (x : Str) : Prop
  | comment : x.head? = some '/' → (∀ raw text rest, x = raw ++ rest → ¬ Comment rest raw text) →
      LexError m x
  | str (q : Char) : m.str = true → x.head? = some q → q = '\'' ∨ q = '"' →
      (∀ w rest, x = w ++ rest → ¬ StrLit w) → LexError m x
  | number (c : Char) : m.number = true → x.head? = some c → c ∈ decimals ∨ c = '.' → LexError m x

end Verif.Spec
