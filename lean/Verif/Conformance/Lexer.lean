import Verif.Conformance.Basic

/-!
# The test tables of the repository: the scanner, the lexer and positions

Generated by `conformance/gen.py`; see `Verif/Conformance/Basic.lean`.
-/

namespace Verif.Conformance
open Verif Parser

/-! ## constant_test.go -/

-- fullIdent
example :
    (lexes (Lexer.readConstant true) [] c!"foo.bar") =
    (some (c!"foo.bar", ⟨[], 0, 1, 1⟩, true)) := by
  kernel_rfl

-- intLit
example :
    (lexes (Lexer.readConstant true) [] c!"1928") =
    (some (c!"1928", ⟨[], 0, 1, 1⟩, true)) := by
  kernel_rfl

-- +intLit
example :
    (lexes (Lexer.readConstant true) [] c!"+1928") =
    (some (c!"+1928", ⟨[], 0, 1, 1⟩, true)) := by
  kernel_rfl

-- -intLit
example :
    (lexes (Lexer.readConstant true) [] c!"-1928") =
    (some (c!"-1928", ⟨[], 0, 1, 1⟩, true)) := by
  kernel_rfl

-- floatLit
example :
    (lexes (Lexer.readConstant true) [] c!"1928.123") =
    (some (c!"1928.123", ⟨[], 0, 1, 1⟩, true)) := by
  kernel_rfl

-- +floatLit
example :
    (lexes (Lexer.readConstant true) [] c!"+1928e10") =
    (some (c!"+1928e10", ⟨[], 0, 1, 1⟩, true)) := by
  kernel_rfl

-- -floatLit
example :
    (lexes (Lexer.readConstant true) [] c!"-1928E-3") =
    (some (c!"-1928E-3", ⟨[], 0, 1, 1⟩, true)) := by
  kernel_rfl

-- single line strLit
example :
    (lexes (Lexer.readConstant true) [] c!"\"\u3042\u3044\u3046\u3048\u304a''\"") =
    (some (c!"\"\u3042\u3044\u3046\u3048\u304a''\"", ⟨[], 0, 1, 1⟩, true)) := by
  kernel_rfl

-- multiline strLit with double quotes
example :
    (lexes (Lexer.readConstant true) [] c!"\"line1 \"\n\"line2 \" \n\"line3\" ") =
    (some (c!"\"line1 line2 line3\"", ⟨[], 0, 1, 1⟩, true)) := by
  kernel_rfl

-- multiline strLit with single quotes
example :
    (lexes (Lexer.readConstant true) [] c!"'line1 '\n'line2 ' \n'line3' ") =
    (some (c!"'line1 line2 line3'", ⟨[], 0, 1, 1⟩, true)) := by
  kernel_rfl

-- boolLit
example :
    (lexes (Lexer.readConstant true) [] c!"true") =
    (some (c!"true", ⟨[], 0, 1, 1⟩, true)) := by
  kernel_rfl

-- boolLit.
example :
    (lexes (Lexer.readConstant true) [] c!"false.") =
    (some (c!"false", ⟨[], 0, 1, 1⟩, false)) := by
  kernel_rfl

-- ident.
example :
    (fails (Lexer.readConstant true) [] c!"rpc.") =
    (true) := by
  kernel_rfl

-- left quote
example :
    (fails (Lexer.readConstant true) [] c!"\"") =
    (true) := by
  kernel_rfl

/-! ## enumType_test.go -/

-- ident
example :
    (lexes (Lexer.readEnumType) [] c!"EnumAllowingAlias") =
    (some (c!"EnumAllowingAlias", ⟨[], 0, 1, 1⟩, true)) := by
  kernel_rfl

-- .ident
example :
    (lexes (Lexer.readEnumType) [] c!".EnumAllowingAlias") =
    (some (c!".EnumAllowingAlias", ⟨[], 0, 1, 1⟩, true)) := by
  kernel_rfl

-- .ident.ident
example :
    (lexes (Lexer.readEnumType) [] c!".search.EnumAllowingAlias") =
    (some (c!".search.EnumAllowingAlias", ⟨[], 0, 1, 1⟩, true)) := by
  kernel_rfl

/-! ## fullIdent_test.go -/

-- ident
example :
    (lexes (Lexer.readFullIdent) [] c!"foo") =
    (some (c!"foo", ⟨[], 0, 1, 1⟩, true)) := by
  kernel_rfl

-- ident;
example :
    (lexes (Lexer.readFullIdent) [] c!"foo;") =
    (some (c!"foo", ⟨[], 0, 1, 1⟩, false)) := by
  kernel_rfl

-- ident.ident
example :
    (lexes (Lexer.readFullIdent) [] c!"foo.true") =
    (some (c!"foo.true", ⟨[], 0, 1, 1⟩, true)) := by
  kernel_rfl

-- ident.ident.ident.ident
example :
    (lexes (Lexer.readFullIdent) [] c!"foo.bar.rpc.fuga") =
    (some (c!"foo.bar.rpc.fuga", ⟨[], 0, 1, 1⟩, true)) := by
  kernel_rfl

-- read invalid {.
example :
    (fails (Lexer.readFullIdent) [] c!"{int_gt: 0}") =
    (true) := by
  kernel_rfl

-- empty string
example :
    (fails (Lexer.readFullIdent) [] c!"") =
    (true) := by
  kernel_rfl

-- ident.
example :
    (fails (Lexer.readFullIdent) [] c!"foo.") =
    (true) := by
  kernel_rfl

/-! ## messageType_test.go -/

-- ident
example :
    (lexes (Lexer.readMessageType) [] c!"SearchRequest") =
    (some (c!"SearchRequest", ⟨[], 0, 1, 1⟩, true)) := by
  kernel_rfl

-- .ident
example :
    (lexes (Lexer.readMessageType) [] c!".SearchRequest") =
    (some (c!".SearchRequest", ⟨[], 0, 1, 1⟩, true)) := by
  kernel_rfl

-- .ident.ident
example :
    (lexes (Lexer.readMessageType) [] c!".search.SearchRequest") =
    (some (c!".search.SearchRequest", ⟨[], 0, 1, 1⟩, true)) := by
  kernel_rfl

-- ident.ident
example :
    (lexes (Lexer.readMessageType) [] c!"aggregatespb.UserItemAggregate") =
    (some (c!"aggregatespb.UserItemAggregate", ⟨[], 0, 1, 1⟩, true)) := by
  kernel_rfl

/-! ## emptyStatement_test.go -/

-- read ;
example :
    (reads Lexer.readEmptyStatement [] c!";") =
    (some ((), true)) := by
  kernel_rfl

-- not found ;
example :
    (fails Lexer.readEmptyStatement [] c!":") =
    (true) := by
  kernel_rfl

/-! ## position_test.go -/

-- advance an ascii character
example :
    ((c!"a".foldl SPos.advance (SPos.new [])).p) =
    (⟨[], 1, 1, 2⟩) := by
  kernel_rfl

-- advance ascii characters
example :
    ((c!"ab".foldl SPos.advance (SPos.new [])).p) =
    (⟨[], 2, 1, 3⟩) := by
  kernel_rfl

-- advance an ascii character and a new line
example :
    ((c!"a\n".foldl SPos.advance (SPos.new [])).p) =
    (⟨[], 2, 2, 1⟩) := by
  kernel_rfl

-- advance utf8 characters and a new line
example :
    ((c!"\u3042\n\u3044".foldl SPos.advance (SPos.new [])).p) =
    (⟨[], 7, 2, 2⟩) := by
  kernel_rfl

-- advance and revert an ascii character
example :
    ((c!"a".foldl SPos.revert (c!"a".foldl SPos.advance (SPos.new []))).p) =
    (⟨[], 0, 1, 1⟩) := by
  kernel_rfl

-- advance and revert ascii characters
example :
    ((c!"ba".foldl SPos.revert (c!"ab".foldl SPos.advance (SPos.new []))).p) =
    (⟨[], 0, 1, 1⟩) := by
  kernel_rfl

-- advance and revert an ascii character and a new line
example :
    ((c!"\na".foldl SPos.revert (c!"a\n".foldl SPos.advance (SPos.new []))).p) =
    (⟨[], 0, 1, 1⟩) := by
  kernel_rfl

-- advance and revert utf8 characters and a new line
example :
    ((c!"\u3044\n\u3042".foldl SPos.revert (c!"\u3042\n\u3044".foldl SPos.advance (SPos.new []))).p)
      =
    (⟨[], 0, 1, 1⟩) := by
  kernel_rfl

/-! ## scanner_test.go -/

-- scan an empty string
example :
    (scans 0 { Scanner.new c!"" [] with mode := {} }) =
    (([], true)) := by
  kernel_rfl

-- skip whitespaces
example :
    (scans 0 { Scanner.new c!"  " [] with mode := {} }) =
    (([], true)) := by
  kernel_rfl

-- scan idents
example :
    (scans 7 { Scanner.new c!"service s1928 s_a 1ac- _s_a" [] with mode := {} }) =
    (([(.ident, c!"service", ⟨[], 0, 1, 1⟩, false),
       (.ident, c!"s1928", ⟨[], 8, 1, 9⟩, false),
       (.ident, c!"s_a", ⟨[], 14, 1, 15⟩, false),
       (.illegal, c!"1", ⟨[], 18, 1, 19⟩, false),
       (.ident, c!"ac", ⟨[], 19, 1, 20⟩, false),
       (.minus, c!"-", ⟨[], 21, 1, 22⟩, false),
       (.ident, c!"_s_a", ⟨[], 23, 1, 24⟩, false)],
      true)) := by
  kernel_rfl

-- scan boolLits
example :
    (scans 5 { Scanner.new c!"true.false,talse" [] with mode := { bool := true } }) =
    (([(.boolLit, c!"true", ⟨[], 0, 1, 1⟩, false),
       (.dot, c!".", ⟨[], 4, 1, 5⟩, false),
       (.boolLit, c!"false", ⟨[], 5, 1, 6⟩, false),
       (.comma, c!",", ⟨[], 10, 1, 11⟩, false),
       (.ident, c!"talse", ⟨[], 11, 1, 12⟩, false)],
      true)) := by
  kernel_rfl

-- scan keywords
example :
    (scans 3 { Scanner.new c!"true service rpc" [] with mode := { keyword := true } }) =
    (([(.ident, c!"true", ⟨[], 0, 1, 1⟩, false),
       (.kService, c!"service", ⟨[], 5, 1, 6⟩, false),
       (.kRpc, c!"rpc", ⟨[], 13, 1, 14⟩, false)],
      true)) := by
  kernel_rfl

-- scan comments
example :
    (scans 5 { Scanner.new c!"\n// hogehoge\nhogehoge\n//\n/*\nfugafuga\n*/\n/**/\n" [] with mode
                 := { comment := true } }) =
    (([(.comment, c!"// hogehoge", ⟨[], 1, 2, 1⟩, false),
       (.ident, c!"hogehoge", ⟨[], 13, 3, 1⟩, false),
       (.comment, c!"//", ⟨[], 22, 4, 1⟩, false),
       (.comment, c!"/*\nfugafuga\n*/", ⟨[], 25, 5, 1⟩, false),
       (.comment, c!"/**/", ⟨[], 40, 8, 1⟩, false)],
      true)) := by
  kernel_rfl

-- scan a comment without a newline
example :
    (scans 1 { Scanner.new c!"\n// hogehoge" [] with mode := { comment := true } }) =
    (([(.comment, c!"// hogehoge", ⟨[], 1, 2, 1⟩, false)], true)) := by
  kernel_rfl

-- scan strLits
example :
    (scans 6 { Scanner.new c!"\"\" '' \"abc\" '\u3042\u3044\u3046' \"\\x1fzz\" '\\123\\n\\\\'" []
                 with mode := { str := true } }) =
    (([(.strLit, c!"\"\"", ⟨[], 0, 1, 1⟩, false),
       (.strLit, c!"''", ⟨[], 3, 1, 4⟩, false),
       (.strLit, c!"\"abc\"", ⟨[], 6, 1, 7⟩, false),
       (.strLit, c!"'\u3042\u3044\u3046'", ⟨[], 12, 1, 13⟩, false),
       (.strLit, c!"\"\\x1fzz\"", ⟨[], 24, 1, 19⟩, false),
       (.strLit, c!"'\\123\\n\\\\'", ⟨[], 33, 1, 28⟩, false)],
      true)) := by
  kernel_rfl

-- scan intLits
example :
    (scans 7 { Scanner.new c!"1 10 9999 07 0123 0xf 0X123" [] with mode := { number := true } }) =
    (([(.intLit, c!"1", ⟨[], 0, 1, 1⟩, false),
       (.intLit, c!"10", ⟨[], 2, 1, 3⟩, false),
       (.intLit, c!"9999", ⟨[], 5, 1, 6⟩, false),
       (.intLit, c!"07", ⟨[], 10, 1, 11⟩, false),
       (.intLit, c!"0123", ⟨[], 13, 1, 14⟩, false),
       (.intLit, c!"0xf", ⟨[], 18, 1, 19⟩, false),
       (.intLit, c!"0X123", ⟨[], 22, 1, 23⟩, false)],
      true)) := by
  kernel_rfl

-- scan floatLits
example :
    (scans 11 { Scanner.new
                  c!"1.0 99.9 99.999 0.11 .101 1.234e5 1928e10 100.234E+15 1.234e-5 inf nan" []
                  with mode := { number := true } }) =
    (([(.floatLit, c!"1.0", ⟨[], 0, 1, 1⟩, false),
       (.floatLit, c!"99.9", ⟨[], 4, 1, 5⟩, false),
       (.floatLit, c!"99.999", ⟨[], 9, 1, 10⟩, false),
       (.floatLit, c!"0.11", ⟨[], 16, 1, 17⟩, false),
       (.floatLit, c!".101", ⟨[], 21, 1, 22⟩, false),
       (.floatLit, c!"1.234e5", ⟨[], 26, 1, 27⟩, false),
       (.floatLit, c!"1928e10", ⟨[], 34, 1, 35⟩, false),
       (.floatLit, c!"100.234E+15", ⟨[], 42, 1, 43⟩, false),
       (.floatLit, c!"1.234e-5", ⟨[], 54, 1, 55⟩, false),
       (.floatLit, c!"inf", ⟨[], 63, 1, 64⟩, false),
       (.floatLit, c!"nan", ⟨[], 67, 1, 68⟩, false)],
      true)) := by
  kernel_rfl

-- unscan ident
example :
    (rescans { Scanner.new c!"service" [] with mode := {} }) =
    (some (⟨[], 0, 1, 1⟩, true, true)) := by
  kernel_rfl

-- unscan boolLit
example :
    (rescans { Scanner.new c!"true" [] with mode := { bool := true } }) =
    (some (⟨[], 0, 1, 1⟩, true, true)) := by
  kernel_rfl

/-! ## meta/position_test.go -/

-- pos without Filename
example :
    ((⟨[], 0, 1, 1⟩ : Position).string) =
    (c!"<input>:1:1") := by
  kernel_rfl

-- pos with Filename
example :
    ((⟨c!"test.proto", 0, 1, 1⟩ : Position).string) =
    (c!"test.proto:1:1") := by
  kernel_rfl

end Verif.Conformance
