import Verif.Model.Token
import Verif.Model.Position

/-!
# Errors

Models `parser/meta/error.go`, `lexer/scanner/error.go`, `lexer/error.go` and `parser/error.go`.
The formatted `Found` text is kept as the values it is built from; the Go source location recorded
by `SetOccured` is not modelled.
-/

namespace Verif

/-- The `Found` part of a `meta.Error`, before formatting. -/
inductive Found where
  /-- lexer/scanner/error.go:14 -/
  | rune (r : Char)
  /-- lexer/error.go:13 -/
  | text (t : Str)
  /-- parser/error.go:15 -/
  | token (t : Str) (tok : Token) (pos : Position)
  deriving DecidableEq, Repr

/-- An `error` value.  `single` is `*meta.Error` (parser/meta/error.go:6-13); `pair` is one of
`parseReservedErr` (reserved.go:10-13), `parseEnumBodyStatementErr` (enum.go:10-13),
`parseMessageBodyStatementErr` (message.go:10-13), `parseExtendBodyStatementErr` (extend.go:10-13). -/
inductive Err where
  | single (pos : Position) (expected : String) (found : Found)
  | pair (first second : Err)
  deriving DecidableEq, Repr

end Verif
