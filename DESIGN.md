# Design

A Lean 4 model of `yoheimuta/go-protoparser` (source in `/repo`) and theorems about it.
Properties are listed in `properties.jsonl` (C01...), their status in `MANIFEST.json`.

## What is modelled

| Go | Lean | remarks |
|---|---|---|
| runes, strings | `Verif/Model/Basic.lean` | a string is the list of its runes (`Char` = Unicode scalar value) |
| rune classes, `unicode.IsSpace` | `Model/Rune.lean` | `IsSpace` is a transcription of the standard library table |
| tokens, keyword table, modes | `Model/Token.lean` | |
| positions | `Model/Position.lean` | the column map is a stack, see *Simplifications* |
| errors | `Model/Error.lean` | position, expected text and the values `Found` is built from |
| `String` and `Error` texts | `Model/Format.lean` | a relation: the place in the Go source is left open |
| scanner | `Model/Scanner.lean` | every function of `lexer/scanner` |
| lexer | `Model/Lexer.lean` | every function of `lexer` except debug logging |
| syntax tree | `Model/Ast.lean` | every struct of `parser` |
| parser | `Model/Parser.lean` | every function of `parser` |
| `Parse`, options, `Comment.Lines` | `Model/Api.lean` | |
| `Accept` methods, visitors | `Model/Visitor.lean` | a visitor is an arbitrary state machine |
| `interpret/unordered` | `Model/Unordered.lean` | |
| `utf8.DecodeRune`, bytes | `Model/Utf8.lean` | |
| reader plus `lastReadBuffer`, shared column map | `Model/Concrete.lean` | a second, lower model of the scanner, over any reader of runes |
| lexer and parser on that state | `Model/Machine.lean` | the functions of `lexer` and `parser` once more, on the reader, the push-back buffer and the one map of columns |
| the slice `lastScanRaw` and its array | `Model/Slices.lean` | a third model of the scanner, with arrays that slices share and any growth of `append` |
| `bufio.Reader`, `io.Reader` | `Model/Reader.lean` | the functions of the standard library that the scanner uses; an `io.Reader` is an arbitrary state machine |
| `encoding/json`: `Marshal`, `MarshalIndent` | `Model/Json.lean` | the values and texts of structs, slices, pointers, strings, numbers and booleans, and the nesting limit of the indenter |
| `_example/dump/main.go` | `Model/Dump.lean` | the JSON value of every struct, and `run`; the file is its bytes or a failure to open |

Go code is modelled as functions `σ → Res σ ε α` (`M`), where `Res` is a normal return, an error
return (the state is kept, as in Go: an error does not undo anything) or a halt.  A halt is a panic
(`Halt.panic`) or the exhaustion of an iteration bound (`Halt.fuel`).  Lean functions must be total,
so each Go loop carries a bound.  The loops of the scanner, the lexer and the statement parsers compute
theirs from the length of the remaining text, and it is proved that it is never exhausted (C14, and the
`_sat` theorems of `Proofs/`).  The loops over the body of a message and of a file, and the nesting of
messages, take the bound `Cfg.fuel`, because after a failed group the remaining text can *grow*
(*Disagreements*, 4).  `Parses input options o` says that `o` is the outcome with some bound; C52 proves that
a larger bound never changes an outcome, so `o` is unique and the bound is not observable; C19 is what is
proved about the existence of `o`.

### Layers of the proofs

1. Scanner: `lex m t` (`Proofs/LexFn.lean`) is a pure function from a mode and a text to the token, the gap
   and the comments before it; `Scanner.scan_eq` shows that `scan` computes it.  `Spec.Lexeme` is the
   independent specification of what it returns.
2. Lexer: `nextSt m l` and `putBack m l` are the state changes of `Next*` and `UnNext`; `Good` is the invariant
   "cursor, position and recorded raw text agree with the file".
3. Soundness (`Proofs/Parse*.lean`, theorems `_sat`): after each parser function, the tokens taken are a
   member of the grammar relation of `Spec/Grammar.lean` for the returned node, the cursor has moved over
   exactly these tokens and gaps (`Took`), comments are where `Spec/Comments.lean` says, and errors carry
   positions of the text.
4. Completeness (`Proofs/Complete*.lean`, theorems `_go`): if the text ahead is a layout (`Spec/Laid.lean`) of
   the spellings of a node, the parser function returns that node, comments and positions erased.
5. Simulation (`Proofs/Sim*.lean`, theorems `sim_*`): two runs whose states are related by a `Link` return
   related results.  Instances: other file name, comments in bodies on or off, larger bound, byte order mark.
6. Error states (`Proofs/Putback.lean`, `Track.lean`, `TrackParse.lean`, `Terminate.lean`, theorems `trk_*`, `fin_*`):
   after an error the last token read is at an end of the text, perhaps put back once (`Known`), or has been put
   back twice and no number of further put-backs produces a semicolon (`Dead`), provided there is no `/*`.
7. Strict beside permissive (`Proofs/Strict*.lean`, theorems `asim_*`): the two runs are kept at the same place of the
   text, or the strict run is before the semicolon that the permissive run has read.  Where the strict run fails and
   the permissive run does not (adjacent string literals), the strict run is shown to fail for good.

8. What errors say (`Proofs/Expect.lean`, `ExpectRun.lean`, theorems `say_*`): at each place that raises an error, the
   current token is known well enough to refute the text that is expected there.
9. Where errors are reported (`Proofs/Cut.lean`, `Viable*.lean`, theorems `_via`): the tokens before each reported
   position begin a statement, a body or a file of the grammar.

10. The parser on the scanner's real state (`Proofs/Machine*.lean`, theorems `ref_*`, `same_*`): each function of the
   second transcription (`Model/Machine.lean`) returns what the first one returns, and the states stay related (`RLex`).
   For embedded comments of an RPC, which the code finds by computing positions in the raw text, this needs that the
   columns it writes are the ones that are there (`Text.Passed`), and that the scanner is behind each comment it reads
   (`Proofs/CommentPos.lean`).
11. Two readers (`Proofs/MachineAlike*.lean`, theorems `par_*`): the second transcription does nothing with its reader but
   read runes, so that any relation between readers under which they give the same runes is kept, and any predicate on
   readers that reading keeps.  The relation is a parameter (class `Linked`); C82, C83 and C84 are instances of it.

### The grammar

`Spec/Grammar.lean` relates a node to lists of spellings with positions.  It has three switches:
`permissive` (constructs of permissive mode), `loose` (what the code accepts beyond the language and drops
from the tree: *Disagreements* 5, 6, 7) and `junk` (tokens before a recovered empty statement, 3).  Soundness
is proved for the grammar with all switches; `Tight` trees and trees
without empty statements give the statements without `loose` and `junk`.  Completeness is proved for the
grammar without `loose` and `junk`.

The switches are narrow.  What a recovery drops (`Cut`) is the beginning of one field or enum value that is not
finished, directly before the semicolon, and its first word starts no other statement.  What a reserved statement
drops (`RangesCut`) is a list of ranges up to a token that begins no range.  The token in place of an import
modifier is no string.  The token in place of the `]` of a list is no comma.  To prove this, each function below a
field comes with a second postcondition for its error return (`Proofs/Cut.lean`, `FailC`, theorems `_cut`): the
tokens before the one to be put back begin a member of the relation of that function.

### Simplifications

1. `lastReadBuffer` and the unread part of the reader are one list `inp`; any read error is the end
   of the input, as in scanner.go:71-74.  C49, C63 and C64 relate this to a model with buffers and reader.
2. The map `columns` of a `scanner.Position` is a stack of line-end columns.  The map is shared by
   all copies of a position; `AdvancedBulk` on a copy writes into it, but only values the scanner
   wrote there itself, except for one corner: `findEmbeddedComments` after a double put-back (see
   *Disagreements*, 4) may write the columns of an earlier numbering.  In that corner columns
   computed by reverting over a newline may differ between Go and the model.  C49 relates stack and
   map for the scanner's own operations, C80 for whole runs of `Parse` in which no group failed.
3. Go `int` is modelled as the integers (no overflow; inputs are shorter than 2^63).
4. Debug logging is not modelled; what debug mode does to the texts of errors is (`Raised`, `ErrText`).  The `Error` callback is the one that `NewLexer` installs; the model keeps what
   it is called with, in order (`Lexer.log`), not the text that is written.  The values of `meta.Error.occuredIn/occuredAt`
   (`runtime.Caller`) are arbitrary, except that the line is positive where one is recorded (`Model/Format.lean`).
5. Duplicate functions are modelled once (`parseRPCRequest` and `parseRPCResponse`; `parseFieldOption` and
   `parseEnumValueOption`, whose errors the caller replaces); this is said at the definitions.
6. The byte level is modelled separately (C46); everything else starts from the decoded runes.
7. `bufio.Reader` is modelled by its unread bytes and its error (`Model/Reader.lean`), not by its array.
8. Slices are values: `LastScanRaw` copies (scanner.go:112-116), and the slices installed by
   `SetLastScanRaw` are not read again after the next `Scan` overwrites them.  C79 relates this to a model with
   arrays that slices share (`Model/Slices.lean`): it is right for clients who give no slice to `UnNextTo` twice, as
   the parser does.

### NUL

The scanner uses rune 0 as end marker, so a NUL in the input is taken for the end of the input at
the moment it is read.  Most theorems assume an input without NUL (`NulFree`); what goes wrong with NUL is
stated in separate theorems.

## Trusted base

* Lean's kernel (4.33.0), and for `decide`-style witnesses its reduction (`decide +kernel` is kernel
  evaluation; no `native_decide`, no `bv_decide`).
* Axioms: at most `propext`, `Classical.choice`, `Quot.sound`; no others; `#print axioms` of any theorem
  named in `MANIFEST.json` shows which.
* That the model transcribes the Go code: each definition cites its lines.  As a check, every case of every
  table of the repository's unit tests (221 cases) is translated by `conformance/gen.py` into an equation about the
  model, and the kernel evaluates it (`Verif/Conformance/*.lean`).  The model agrees with all of them, positions
  included.  These are tests of the model, not proofs of properties.
* The Go standard library pieces that the model transcribes: `unicode.IsSpace`, `utf8.RuneLen`,
  `utf8.DecodeRune`, `utf8.FullRune`, `strings.Trim/TrimPrefix/TrimSuffix/Split/Join/HasPrefix`, `bufio.Reader.ReadRune`, `fill`,
  `filepath.Base`, `encoding/json` (strings, indentation, nesting limit) as of Go 1.22.  As a check, the model prints the file
  `_testdata/simple.proto` like the README does, but for fields that the README lacks and its `LastPos`, which is older.

Not modelled: `internal/` (helpers of tests), tests, the parsing of command line flags, the exhaustion of memory or of
the stack.  Of the standard library, `%d`, `%q` and `%v` are
transcribed in `Model/Format.lean` for any table of printable runes (`unicode.IsPrint`).

## Plan per property

| id | what is modelled and how it is proved |
|---|---|
| C01 | `scan`, `unScan`: invariant "raw is what was consumed and the position is the old one advanced by raw", through every loop; `unScan` inverts it |
| C02 | from C01, induction on n |
| C03 | the same invariant, induction on the number of scans |
| C04 | specification `posAt` (count bytes, newlines, runes); invariant over a history of scan/unscan |
| C05 | invariant: consumed = gap ++ text (++ newline for line comments) |
| C06 | independent inductive definition of gaps; the record of comments |
| C07, C08 | equation for `scanIdent` as `span`, case analysis of `scan` |
| C09, C10 | independent grammar predicates; invariant of the digit loops; witness for the violated half |
| C11, C12 | independent grammars; both directions |
| C13 | from the shape of `scan` |
| C14 | loop bounds never exhausted; consumed text non-empty |
| C15 | fold invariant; filter |
| C16-C18 | layout relation for token lists; soundness by the loop invariant, completeness by induction on the parts |
| C19 | violated: layer 5 shows that inside a message the run depends on the remaining text only; two kernel evaluations give a cycle of two texts.  Without groups: termination measure = remaining length.  Without `/*`: layer 6, the same measure; so an input without outcome contains both `group` and `/*` (`nonterminating_input`) |
| C20 | panic only from the nil top-level statement; unless a group failed (in particular without `group`) the exact place, without `/*` (groups allowed) a semicolon and a comment on its line |
| C21 | from the exit condition of the top-level loop and C13 |
| C22-C26 | predicate `WF` on trees, proved for every parser function |
| C27, C45 | layer 4; a document is a tree related to spellings by the grammar; every layout of them parses to it, unless a comment stands behind a top-level `;` of its own (1). Without floats with superfluous leading zeros (13) |
| C28, C29, C43, C44 | layer 3, for every run that recovers from no failed group (`Settled`, `Calmly`: the parser that gives up at that place, `Proofs/Calm.lean`, returns the same tree); negations where the code drops text or recovers (`group_text_violation`, `meta_violation`) |
| C30 | from C05/C06 |
| C31, C51 | stream of tokens and comments (`Spec/Comments.lean`); layer 3 shows which comment goes to which node; the lossy places are listed in the specification; the invariant `Inv` (`Proofs/Stream.lean`) says which comments the scanner has recorded, however often text was put back, which gives the embedded comments of an rpc |
| C32, C33 | layer 5 |
| C34 | layer 7; the relation between the two trees is `Spec/Strict.lean` |
| C35 | layer 5 with the link "offset + 3"; the column of the first line is related as "equal or one larger", because the run after a failed group may revert over line ends it has not passed |
| C36, C37 | induction on trees; for trees from `Parse` with C53 |
| C38-C40 | specification of the visit sequence as a list; induction on trees; for trees from `Parse` with C53 |
| C41 | split/join lemmas |
| C42 | induction on the option list; cases of the error's text for debug mode (`error_text_place`, `debug_text_same`, and `debug_text` for a text that differs) |
| C46 | UTF-8 decoder, round trip with the encoder; offsets are lengths of encodings |
| C47 | induction on the literals; witness of the violation |
| C48 | loop invariant |
| C49 | refinement relation between `Model/Concrete.lean` and the scanner; the shared map is correct for scans and put-backs, with a witness where it is not (18) |
| C50 | from C04 and layer 3; the theorems `_via` (`Proofs/Viable*.lean`) show for each parser function that what stands before a reported position begins its statement (`Begun`, `Blames` in `Spec/Begun.lean`); witnesses for strict mode (17), failed groups (4) and declarations (20) |
| C52 | layer 5 with the identity link and two bounds |
| C53 | what each parser function can return (`Ret`), by recursion over the functions, without any invariant |
| C54, C55 | decoding functions for decimal numbers and Go string literals (`Spec/Format.lean`) that invert the texts |
| C56 | layer 4; `After` says what text follows the first spellings of a layout, `CommentBehindSemi` when a comment stands behind a `;` of its own; both outcomes are derived, so the condition is exact |
| C57 | layer 8; `kinds` lists what each expected text describes; witnesses of the violations (20) |
| C58 | from the pure scanner of layer 1 |
| C59 | from C22 |
| C60 | induction on the bodies; the element to blame is unique (`BadProto`), so the statement is an equivalence |
| C61 | C57 gives the list of expected texts; none of them with its bracket is the start of another |
| C62 | from C28: in the token list of a tree each statement has a `;` or `}` of its own; violated after a failed group (4) |
| C63 | C49 is proved for every reader of runes; the buffered reader is one, by an invariant of `fill` and `ReadRune` |
| C64 | violated (22): the same invariant shows that an error is a NUL, or the end of the input if it stays |
| C65 | from C28: the tokens of a file rise, the stretches of siblings are disjoint, those of parts are inside; violated after a failed group that is recovered (`nesting_violation`) |
| C66 | layers 3 and 4 on the same run: `Proofs/Calm.lean` is the parser that gives up where the model recovers from a failed group; on a well-formed file it does not give up (layer 4), so it is the model, and without recovery layer 3 needs no condition |
| C67 | a printer over the public fields of the nodes (`Spec/Print.lean`, not part of the repository); what it prints for a node is again a derivation of the same node in the grammar (`Proofs/Print.lean`, `Proofs/PrintNodes.lean`), then soundness (C28) of the first and completeness (C27) of the second run; witness of the violation |
| C68 | layer 4 with the log in its invariant (`Ahead.log`): where the parser reads a token in a mode with literals it either finds a complete one or a spelling that starts none, also in its look-aheads; witness of the violation (23) |
| C69 | histories of a lexer (`Driven`) are histories of its scanner with the mode restored; then C06 and C58 |
| C70 | C19 and C20; without `/*` the text that remains behind a statement is an end of the text (layer 6), so a panic has its semicolon and comment in the text itself (`Spec/SemiComment.lean`) |
| C71 | texts of JSON values determine the value, by mutual induction over value, items and fields, with what may follow a value; the JSON value of a node determines the node: the names of the fields tell the kind, then field by field; the text is derived in the grammar of RFC 8259 (`Spec/Json.lean`) |
| C72 | case analysis of `run`; the depth of the JSON value of a tree with n levels of bodies is between 2n+3 and 2n+9, that of an unordered tree at most 3n+10 and, with n levels of messages, at least 3n+3; there are accepted files of every depth (C27) |
| C73 | layer 3 for each statement parser (what it consumed is a stream of its tokens), composed along the history by induction; a stream that begins with a token was read where no comment follows |
| C74 | layer 3 with an empty set of halts, layer 6 for texts with `group` and without `/*`; missing: message and group parsers on texts with both (violated: `call_returns_violation`), `MaybeScanInlineComment` of nil or a comment (`call_inline_violation`); violated for positions as C50 |
| C75 | layer 4 for each statement parser, composed along the history; the run is calm, so C73 applies to it |
| C76 | what each function returns from an arbitrary state (`Val`, `Proofs/RawLex.lean`, `RawParse.lean`): what a token tells about its text holds for every text, and each parser function only copies texts whose token it has tested; no invariant of the state is used |
| C77 | layer 4; layouts and token lists of files can be joined. With a semicolon at the start of the second file it does not hold: it is taken for the end of a block before it (`join_violation`) |
| C78 | `Spec/Undump.lean` reads a JSON value by the names of the Go fields, as `json.Unmarshal` does; it is shown to invert the model of `Marshal`, by induction over the depth; the grammar of JSON is unambiguous, by induction over derivations with what may follow a value |
| C79 | the programs of C49 are run on a third state, with arrays and slices (`Model/Slices.lean`); an operation writes only to the array of `lastScanRaw` and to new ones (`Frame`), so what the caller has and has not given away is theirs alone (`Owned`); with C49 this shows what a client with values sees. It fails for a slice that is given twice (`slices_violation`) |
| C80 | lexer and parser are transcribed a second time, on the state of C49 and any reader (`Model/Machine.lean`); a refinement, function by function, shows that a run returns the same tree, error or panic as on the ideal cursor, and logs the same (`same_parseProto`). With C63 this makes every theorem about `parse` one about `Parse` on a reader that cuts its bytes as it likes. An accepted file without services needs no hypothesis (`reader_parse_plain`). Neither do calls of the exported methods except `ParseService` (`reader_calls_partial`). Missing: NUL and runs that recover from a failed group (4), if the file is rejected or has services |
| C81 | the loop of a file ends only where the machine has seen the end: then its text is used up, so that nothing is left in the reader (`last_parseProto`), and a new buffer on the same source is empty too (`gives_nil_source`). That all bytes have been taken is shown with the meter of C84, for every source that delivers the bytes (`accepted_taken_partial`). With NUL it fails (`nul_left_violation`) |
| C82 | the machine of C80 is run on two readers; a relation between the two runs, function by function (`Proofs/MachineAlike*.lean`, theorems `par_*`), says that the states differ in their readers only and that these give the same runes for ever. There is no condition on the text, and the readers need not end. The ideal cursor plays no part in it |
| C83 | the relation of C82 is a parameter (`Linked`), and one of its readers may come to states from which on nothing is claimed. Here both readers count, and such a state is one in which more than `n` runes have been read (`linkedFor`). Both runs get the same iteration bounds, so that a longer text is one with the same bounds. `Props/CallsRead.lean` has it for sequences of calls, by induction on the sequence |
| C84 | the relation of C82 once more: its one-sided half says that every predicate on readers which reading keeps survives a call (`reader_keeps`), its other half that every relation under which readers give the same runes does (`readers_related`). The source behind the buffer is given a meter (`metered`), the runes are counted (`counting`), and the relation says that delivered bytes minus buffered bytes are at most four for each rune. For slow sources the length of the buffer is a predicate of the first kind. The buffer is that of `Model/Reader.lean`, with its hundred empty reads |

## Disagreements between the code and the properties

1. Top-level `;` (proto.go:163-172): the nil `stmt` is appended after the `EmptyStatement`; `; // c`
   panics in `Parse` (C20); `Proto.Accept` panics on the nil element (C40); `UnorderedInterpret`
   fails (C37).
2. `UnorderedInterpret` fails on service bodies with `;` and on bodies with comments (C37), and drops
   the edition.
3. Error recovery in enum/message/extend bodies drops text: `enum E { FOO ; }` (C43).
4. After a failed group body the lexer is un-nexted twice, which duplicates text:
   `message M { optional group G = 1 { extensions ; }` parses with two empty statements and the
   positions of what follows are off (C04 does not extend to this history; C43).  The text of a comment
   can be parsed as code this way (`group_text_violation`), error offsets can be negative, a statement of an
   accepted file can begin before the statement that contains it (`nesting_violation`, C65), and the text
   that is put back doubles with each nested failed group, so the run time is exponential in the nesting.  On the
   input `endless` (`Props/Diverge.lean`, 167 characters) the parser comes back to the same text again and
   again and never returns (`termination_violation`, C19).
5. `reserved 1, "a";` gives FieldNames ["a"]; the range is dropped (C28, C43).
6. `import foo "x";` and `import ; "x";` are accepted (C44).
7. `option a = [1;;` is accepted as `[1]` (option.go:267 does not look at the token) (C28).
8. Merging string literals trims quotes that belong to the content (C47). In permissive mode this happens to a single literal
   too: `option a = "\"";` gives the constant `"\"`, which is no string literal, so a printer of the tree writes
   a file that is rejected (C67).
9. Lost comments (C31).
10. `oneof` with a trailing `;` before `}` or an empty `oneof` is rejected (C27 excludes them).
11. `syntax = "proto3';` and white space or comments inside the quotes are accepted (C28).
12. `Accept` does not visit the options of an rpc and several comments (C38 states what is visited).
13. `01.5` is scanned as `01` followed by `.5` (C10).
14. A NUL is taken for the end of the input when it is read, and a peek removes it (`nul_violation`, C21).
    Texts behind a NUL can be left out of the tree without an error (`nul_cut`); a type can end with a dot and a quoted name can hold its own quote (`names_violation`, C22).  What holds nevertheless is C76.
15. `ReadMessageType` returns `a.` or an empty string at the end of the input without error (C17).
16. In strict mode `};` yields an `EmptyStatement` (at the top level also a nil), in permissive mode the `;`
    belongs to the block (C34).
17. In strict mode the position of the second of two joined errors can be wrong (C50).
18. The map `columns` is shared by all copies of a position: `AdvancedBulk` on a copy changes the column that a
    later revert of the scanner restores (`shared_columns_violation`, C49).
19. U+FEFF is skipped also behind white space and comments, and comments before it are lost (`late_mark`, C35).
20. Behind a declaration of an extensions statement the error reports the token after the offending one; after a
    trailing comma `}` is reported as found and as expected (`error_expected_violation`, C57).
21. For a slash that starts no comment the position of the error is one behind the reported rune, elsewhere it is the
    position of the rune; an unterminated block comment is said to miss a newline (C58).
22. Every error of the reader is taken for the end of the input (scanner.go:71-74), so that a file whose reading fails
    behind a complete statement is accepted as if it ended there; an error that goes away splits a token
    (`read_error_violation`, C64; `parse_read_error_violation` for `Parse`).
23. An import with a stray slash in place of its modifier is accepted although the scanner reports an error; the
    error is only written to the log of the process (`log_violation`, C68).
24. The dump command goes on after a failure to marshal: the indenter of encoding/json refuses more than 10000 levels, so
    for 4999 and more nested messages (3333 with `-unordered`) it prints nothing and the exit code is 0
    (`dump_silent`, `dump_violation`, `dump_unordered_violation`, C72).
25. `WithDebug` is meant for logging, but it also changes the texts of errors raised in the lexer (lexer/error.go:15-18):
    only with it do they tell the place in the library's source (`debug_text`, C42).
26. `Lexer.UnNextTo` keeps the slice that it is given, and later scans write to its array (scanner.go:107, 61, 120): a
    caller who gives the same slice a second time puts back another text (`slices_violation`, C79).  The parser gives each
    slice once.
