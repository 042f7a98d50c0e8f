import Verif.Spec.Lexical
import Verif.Model.Position
import Verif.Model.Token

/-!
# Specification of positions and of keyword spellings
-/

namespace Verif.Spec

/-- The position of the rune that follows the prefix `pre` of a file. -/
def posAt (file pre : Str) : Position where
  filename := file
  offset := bytes pre
  line := line pre
  column := column pre

/-- The spelling of a keyword token. -/
def spelling : Token → Option Str
  | .kSyntax => some c!"syntax" | .kEdition => some c!"edition" | .kService => some c!"service"
  | .kRpc => some c!"rpc" | .kReturns => some c!"returns" | .kMessage => some c!"message"
  | .kExtend => some c!"extend" | .kImport => some c!"import" | .kPackage => some c!"package"
  | .kOption => some c!"option" | .kRepeated => some c!"repeated" | .kRequired => some c!"required"
  | .kOptional => some c!"optional" | .kWeak => some c!"weak" | .kPublic => some c!"public"
  | .kOneof => some c!"oneof" | .kMap => some c!"map" | .kReserved => some c!"reserved"
  | .kExtensions => some c!"extensions" | .kDeclaration => some c!"declaration"
  | .kNumber => some c!"number" | .kFullName => some c!"full_name" | .kType => some c!"type"
  | .kEnum => some c!"enum" | .kStream => some c!"stream" | .kGroup => some c!"group"
  | _ => none

/-- The one-rune tokens. -/
def punctuation : Token → Option Char
  | .semicolon => some ';' | .colon => some ':' | .equals => some '=' | .leftParen => some '('
  | .rightParen => some ')' | .leftCurly => some '{' | .rightCurly => some '}'
  | .leftSquare => some '[' | .rightSquare => some ']' | .less => some '<' | .greater => some '>'
  | .comma => some ',' | .dot => some '.' | .minus => some '-' | .bom => some (Char.ofNat 0xFEFF)
  | _ => none

end Verif.Spec
