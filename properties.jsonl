{"id": "C01", "title": "Scan followed by UnScan is invisible to later scans", "statement": "After Scanner.Scan (in any mode) followed by Scanner.UnScan, the scanner delivers the same remaining text from the same position as if neither had been called, whatever the scan found, including scans that failed. Only the record of scanned comments may have grown.", "quantifier": "every NUL-free remaining text, every scanner mode, every prior position, every outcome of the scan (token, EOF, lexical error)", "why_tests_cant": "A test checks the push-back of a few tokens; the claim is about every text, including ones where the failed scan stops in the middle of a literal or spans many lines.", "anchors": ["lexer/scanner/scanner.go:Scan", "lexer/scanner/scanner.go:UnScan", "lexer/scanner/scanner.go:read", "lexer/scanner/scanner.go:unread", "lexer/scanner/position.go:Revert"]}
{"id": "C02", "title": "Peek and PeekN do not consume", "statement": "Lexer.Peek and Lexer.PeekN(n) return the token the next (n-th next) Lexer.Next would return, and leave the remaining text and the source position unchanged, for every n.", "quantifier": "every NUL-free remaining text and every n", "why_tests_cant": "n and the text are unbounded; the look-ahead is implemented by n scans undone in reverse order.", "anchors": ["lexer/lexer.go:Peek", "lexer/lexer.go:PeekN", "lexer/lexer.go:UnNextTo"]}
{"id": "C03", "title": "Tokenisation is lossless", "statement": "Calling Scan until it reports EOF, the concatenation of the raw texts consumed by the calls is exactly the input; no rune is skipped, duplicated or reordered, in any sequence of modes.", "quantifier": "every NUL-free input and every sequence of scan modes", "why_tests_cant": "Unbounded inputs and unbounded sequences of modes.", "anchors": ["lexer/scanner/scanner.go:Scan", "lexer/scanner/scanner.go:scan", "lexer/scanner/scanner.go:LastScanRaw"]}
{"id": "C04", "title": "Reported positions are exact", "statement": "After any sequence of Scan and UnScan calls on a fresh scanner (each UnScan following a Scan), the scanner's offset is the UTF-8 length of the consumed prefix, the line is 1 plus the number of newlines in it, and the column is 1 plus the number of runes after the last newline.", "quantifier": "every NUL-free input and every history of scans, modes and undone scans", "why_tests_cant": "The position is maintained incrementally and by reversal through a column table; a bug shows only for particular newline and undo patterns.", "anchors": ["lexer/scanner/position.go:Advance", "lexer/scanner/position.go:Revert", "lexer/scanner/scanner.go:UnScan"]}
{"id": "C05", "title": "A token's text is the source text at its position", "statement": "When Scan returns a token other than EOF without an error, the source text starting at the returned position begins with the returned text (for a // comment the text excludes the newline that was consumed with it).", "quantifier": "every NUL-free remaining text and every mode", "why_tests_cant": "Ranges over all texts; the token text is accumulated rune by rune in a dozen separate loops.", "anchors": ["lexer/scanner/scanner.go:scan", "lexer/scanner/ident.go:scanIdent", "lexer/scanner/strLit.go:scanStrLit", "lexer/scanner/numberLit.go:scanNumberLit", "lexer/scanner/comment.go:scanComment"]}
{"id": "C06", "title": "Only white space and comments are skipped", "statement": "The text that Scan consumes before the token it returns consists only of Unicode white space and complete comments; in comment mode only of white space; and exactly the comments that were skipped or returned are added to the comment record, in order, with their positions.", "quantifier": "every NUL-free remaining text and every mode", "why_tests_cant": "A universally quantified statement about what is never dropped.", "anchors": ["lexer/scanner/scanner.go:scan", "lexer/scanner/scanner.go:GetScannedComments", "lexer/scanner/comment.go:scanComment"]}
{"id": "C07", "title": "Identifiers are maximal", "statement": "A word token starts with a letter or underscore, contains only letters, digits and underscores, and is followed by a rune that is none of these (or by the end); conversely every such maximal run at the scan position is returned as one word token (identifier, keyword, Boolean or inf/nan).", "quantifier": "every NUL-free remaining text and every mode", "why_tests_cant": "Maximality is a statement about all continuations.", "anchors": ["lexer/scanner/ident.go:scanIdent", "lexer/scanner/scanner.go:scan"]}
{"id": "C08", "title": "Keywords are recognised exactly when asked for", "statement": "A word is returned as a keyword token iff keyword mode is on and the word is one of the 26 keywords, and then as that keyword's own token; true/false are Boolean literals iff Boolean mode is on; inf/nan are float literals iff number mode is on; otherwise the word is an identifier.", "quantifier": "every word and every mode", "why_tests_cant": "All identifiers: a test samples a few, and a table with a duplicate or a missing row would pass it.", "anchors": ["lexer/scanner/token.go:asKeywordToken", "lexer/scanner/scanner.go:scan", "lexer/scanner/boolLit.go:isBoolLit", "lexer/scanner/floatLit.go:isFloatLitKeyword"]}
{"id": "C09", "title": "Integer literals match the grammar", "statement": "Every integer-literal token's text is a decimal, octal or hexadecimal literal of the protobuf grammar (decimal without leading zero, octal with leading zero and octal digits, hexadecimal with 0x and at least one digit).", "quantifier": "every NUL-free remaining text", "why_tests_cant": "All texts; the scanner decides with one rune of look-ahead.", "anchors": ["lexer/scanner/numberLit.go:scanNumberLit"]}
{"id": "C10", "title": "Float literals match the grammar", "statement": "Every float-literal token's text is a floatLit of the protobuf grammar; and every grammatical numeric literal that is not followed by a rune which could extend it is scanned whole. The second half is violated: '01.5' is scanned as the integer 01.", "quantifier": "every NUL-free remaining text in number mode", "why_tests_cant": "All texts; both directions of a grammar equivalence.", "anchors": ["lexer/scanner/numberLit.go:scanNumberLit", "lexer/scanner/numberLit.go:scanExponent"]}
{"id": "C11", "title": "String literals match the grammar and end at their quote", "statement": "A string-literal token is an opening quote, characters or escapes that are not newline and not the unescaped quote, and the same closing quote; and every such literal at the scan position in string mode is returned whole; an unterminated one is an error.", "quantifier": "every NUL-free remaining text", "why_tests_cant": "All contents and escapes, including escaped quotes and escapes cut off by the end of the literal.", "anchors": ["lexer/scanner/strLit.go:scanStrLit", "lexer/scanner/strLit.go:tryScanEscape"]}
{"id": "C12", "title": "Comments end where the language says", "statement": "A // comment runs to the end of the line or of the input; a /* comment runs to the first */ at or after its third rune; an unterminated /* comment is a scan error and yields no token.", "quantifier": "every NUL-free remaining text", "why_tests_cant": "'First terminator' is a statement about all texts, e.g. /*/ and /***/.", "anchors": ["lexer/scanner/comment.go:scanComment"]}
{"id": "C13", "title": "EOF is reported exactly at the end", "statement": "Scan (outside comment mode) reports EOF iff the remaining text is only white space and complete comments; in comment mode iff it is only white space.", "quantifier": "every NUL-free remaining text and every mode", "why_tests_cant": "An early EOF makes Parse silently accept a truncated file; no finite set of inputs excludes it.", "anchors": ["lexer/scanner/scanner.go:scan", "lexer/scanner/eof.go:isEOF"]}
{"id": "C14", "title": "Scanning terminates and makes progress", "statement": "Every Scan call terminates and either reports EOF or consumes at least one rune.", "quantifier": "every NUL-free remaining text and every mode", "why_tests_cant": "Termination is a liveness property over unbounded inputs.", "anchors": ["lexer/scanner/scanner.go:scan"]}
{"id": "C15", "title": "Comment look-up is duplicate-free, ordered and bounded", "statement": "GetScannedComments lists every recorded comment exactly once (up to offset and text), in order of first scan, even when the text was scanned repeatedly; FindMidComments(from,to) returns exactly those strictly between the two offsets.", "quantifier": "every history of scans and every pair of positions", "why_tests_cant": "Depends on arbitrary re-scan histories.", "anchors": ["lexer/scanner/scanner.go:GetScannedComments", "lexer/lexer.go:FindMidComments"]}
{"id": "C16", "title": "ReadFullIdent reads exactly a dotted identifier", "statement": "On success ReadFullIdent returns ident{.ident} made of the tokens it consumed and nothing beyond it is consumed except white space/comments that are put back; it succeeds on every text that starts with a dotted identifier not followed by a dot, whatever gaps separate the tokens.", "quantifier": "every dotted identifier, every gaps, every following text", "why_tests_cant": "Unbounded number of parts, arbitrary comments between them.", "anchors": ["lexer/fullIdent.go:ReadFullIdent"]}
{"id": "C17", "title": "ReadMessageType reads exactly a message type", "statement": "On success ReadMessageType returns [.]ident{.ident} made of the tokens it consumed; it succeeds on every such text. Violated at the end of input: 'a.' or '' are returned without error.", "quantifier": "every message type, all gaps, every following text", "why_tests_cant": "Unbounded number of parts; the end-of-input case is where the claim fails.", "anchors": ["lexer/messageType.go:ReadMessageType"]}
{"id": "C18", "title": "ReadConstant reads exactly a constant", "statement": "On success ReadConstant(false) returns a fullIdent, a signed number, a string or a Boolean of the grammar, equal to the source text of the tokens consumed.", "quantifier": "every NUL-free remaining text", "why_tests_cant": "All literals and signs.", "anchors": ["lexer/constant.go:ReadConstant"]}
{"id": "C19", "title": "Parse terminates", "statement": "Parse returns (or panics) after finitely many steps on every input, in strict and permissive mode, with and without comments in bodies.", "quantifier": "every NUL-free input and every configuration", "why_tests_cant": "Parser loops undo tokens and retry; non-termination on one malformed file hangs the caller.", "anchors": ["protoparser.go:Parse", "parser/message.go:parseMessageBody", "parser/option.go:parseOptionConstant"]}
{"id": "C20", "title": "Parse never panics", "statement": "Parse never panics. Violated: a top-level ';' followed by a comment on the same line panics; it is the only way to panic.", "quantifier": "every NUL-free input and every configuration", "why_tests_cant": "Absence of panics over all inputs.", "anchors": ["parser/proto.go:parseProtoBody", "parser/inlineComment.go:MaybeScanInlineComment"]}
{"id": "C21", "title": "A successful Parse has consumed the whole input", "statement": "If Parse succeeds then the remaining unread text is only white space and comments that end the file; nothing after the last statement is ignored. Violated when the input contains NUL: everything after it may be ignored.", "quantifier": "every input, every configuration", "why_tests_cant": "Silent truncation shows only for particular inputs.", "anchors": ["parser/proto.go:parseProtoBody", "parser/parser.go:IsEOF", "lexer/scanner/scanner.go:read"]}
{"id": "C22", "title": "Names and numbers in an accepted tree are lexically valid", "statement": "In every tree Parse returns, at any depth: message, enum, service, rpc, oneof, field, map-field and enum-value names are identifiers; field numbers and range bounds are integer literals (or max); enum values are integer literals with an optional sign; package names are dotted identifiers; import locations are string literals.", "quantifier": "every NUL-free input, every configuration, every node of the tree", "why_tests_cant": "Must hold at every node of every accepted tree.", "anchors": ["parser/message.go:ParseMessage", "parser/field.go:ParseField", "parser/enum.go:parseEnumField", "parser/reserved.go:parseRange"]}
{"id": "C23", "title": "Field labels are exclusive", "statement": "At most one of IsRepeated, IsRequired, IsOptional is set on any field or group field of a returned tree.", "quantifier": "every NUL-free input, every configuration, every field at any depth", "why_tests_cant": "Every node of every accepted tree.", "anchors": ["parser/field.go:ParseField", "parser/groupField.go:ParseGroupField"]}
{"id": "C24", "title": "Map keys are legal key types", "statement": "The KeyType of every map field in a returned tree is one of the twelve types the language allows.", "quantifier": "every NUL-free input, every configuration, every map field at any depth", "why_tests_cant": "Every node of every accepted tree.", "anchors": ["parser/mapField.go:parseKeyType"]}
{"id": "C25", "title": "Group names are capitalised", "statement": "The GroupName of every group field in a returned tree is an identifier that starts with an upper-case letter.", "quantifier": "every NUL-free input, every configuration, every group at any depth", "why_tests_cant": "Every node of every accepted tree.", "anchors": ["parser/groupField.go:ParseGroupField"]}
{"id": "C26", "title": "Reserved holds ranges or names, never both, never neither", "statement": "For every Reserved in a returned tree exactly one of Ranges and FieldNames is non-empty; every Extensions has at least one range.", "quantifier": "every NUL-free input, every configuration, every such node", "why_tests_cant": "Every node of every accepted tree.", "anchors": ["parser/reserved.go:ParseReserved", "parser/extensions.go:ParseExtensions"]}
{"id": "C27", "title": "Every well-formed file is parsed to the tree it denotes", "statement": "For every document of the supported grammar and every way of laying out its tokens with white space and comments, Parse succeeds and the returned tree, comments and positions erased, is that document.", "quantifier": "every document (unbounded nesting and sizes) and every layout of it", "why_tests_cant": "A round trip over an infinite language.", "anchors": ["protoparser.go:Parse", "parser/proto.go:ParseProto"]}
{"id": "C28", "title": "What Parse accepts is what the tree says", "statement": "If a statement parser succeeds then the text it consumed is a layout (white space and comments between tokens) of exactly the tokens of the returned statement.", "quantifier": "every NUL-free input on which the statement parser succeeds", "why_tests_cant": "Soundness over all accepted inputs.", "anchors": ["parser/field.go:ParseField", "parser/option.go:ParseOption", "parser/reserved.go:ParseReserved", "parser/service.go:parseRPC"]}
{"id": "C29", "title": "Meta positions delimit the statement", "statement": "For every statement parser, Meta.Pos is the position of the statement's first token and Meta.LastPos the position of its last token (the closing brace, or the semicolon after it in permissive mode).", "quantifier": "every NUL-free input on which the parser succeeds", "why_tests_cant": "All layouts and multi-line statements.", "anchors": ["parser/field.go:ParseField", "parser/message.go:ParseMessage", "parser/meta/meta.go:Meta"]}
{"id": "C30", "title": "Comment nodes carry the exact source comment", "statement": "Every Comment produced by ParseComments/parseInlineComment has Raw equal to the source text of a comment at Meta.Pos, Meta.LastPos is the position of its last rune, and an inline comment starts on the line of the token it follows; the comments of ParseComments are all the comments before the next token.", "quantifier": "every NUL-free remaining text", "why_tests_cant": "All layouts.", "anchors": ["parser/comment.go:ParseComments", "parser/inlineComment.go:parseInlineComment"]}
{"id": "C31", "title": "No comment is lost with WithBodyIncludingComments", "statement": "With WithBodyIncludingComments(true) every comment of the source appears in the tree. Violated, for instance for the comments before the first statement of a file without syntax or edition, and for comments in an empty message body.", "quantifier": "every NUL-free input that parses", "why_tests_cant": "All layouts of all files.", "anchors": ["protoparser.go:WithBodyIncludingComments", "parser/proto.go:ParseProto", "parser/message.go:parseMessageBody"]}
{"id": "C32", "title": "WithBodyIncludingComments only adds comments", "statement": "Parse with and without WithBodyIncludingComments has the same outcome, and the two trees are equal once the Comment elements are removed from the bodies.", "quantifier": "every input and every other option", "why_tests_cant": "A relation between two runs on all inputs.", "anchors": ["protoparser.go:WithBodyIncludingComments"]}
{"id": "C33", "title": "The file name changes nothing but Filename", "statement": "Parse with two different WithFilename values has the same outcome and trees that differ only in the Filename of the positions; every position of the tree carries the given name, and Meta.Filename of the Proto is the given name.", "quantifier": "every input and every pair of names", "why_tests_cant": "A relation between two runs on all inputs.", "anchors": ["protoparser.go:WithFilename", "lexer/scanner/position.go:Position"]}
{"id": "C34", "title": "Permissive mode accepts a superset of strict mode", "statement": "Every input that Parse accepts in strict mode it also accepts in permissive mode. The two trees differ only in three ways: string constants carry exactly one quote at either end, a semicolon behind the right curly of a block is the end of the block (last position, trailing comment) instead of an empty statement, and the comments embedded in rpc headers.", "quantifier": "every NUL-free input and every other option", "why_tests_cant": "An inclusion between two infinite languages.", "anchors": ["protoparser.go:WithPermissive", "lexer/constant.go:mergeMultilineStrLit", "parser/option.go:parseOptionConstant", "parser/message.go:parseMessageBody"]}
{"id": "C35", "title": "A leading byte order mark is ignored", "statement": "Parsing U+FEFF followed by a text that does not itself begin (after white space and comments) with U+FEFF has the outcome of parsing the text: the same tree or error, with all offsets 3 larger, the same lines, the same columns on all lines but the first, and columns at most 1 larger on the first.", "quantifier": "every NUL-free text", "why_tests_cant": "A relation between two runs on all inputs.", "anchors": ["parser/proto.go:parseBOM", "lexer/scanner/token.go:TBOM"]}
{"id": "C36", "title": "UnorderedInterpret keeps every element, in order", "statement": "When UnorderedInterpret succeeds, each list of the result is the sub-sequence of the body elements of its kind, in the original order, at every level, and no element is dropped or duplicated; names, comments and positions are carried over.", "quantifier": "every syntax tree on which it succeeds", "why_tests_cant": "All trees, any nesting depth.", "anchors": ["protoparser.go:UnorderedInterpret", "interpret/unordered/proto.go:InterpretProto", "interpret/unordered/message.go:InterpretMessage"]}
{"id": "C37", "title": "UnorderedInterpret accepts every tree Parse returns", "statement": "UnorderedInterpret succeeds on every tree returned by Parse. Violated by empty statements at top level or in services and by comments in bodies; it succeeds exactly on the trees without those.", "quantifier": "every syntax tree", "why_tests_cant": "All trees; the exact characterisation of success is a universal statement.", "anchors": ["interpret/unordered/proto.go:interpretProtoBody", "interpret/unordered/service.go:interpretServiceBody"]}
{"id": "C38", "title": "Accept visits every element once, parents first", "statement": "With a visitor that always returns true, Proto.Accept calls the visitor exactly once for the syntax, the edition and every body element at every depth, each parent before its children and siblings in source order, followed by the comments of the element.", "quantifier": "every syntax tree without nil elements and every visitor state", "why_tests_cant": "All trees, any depth.", "anchors": ["parser/proto.go:Accept", "parser/message.go:Accept", "parser/visitor.go:Visitor"]}
{"id": "C39", "title": "Returning false prunes exactly the subtree", "statement": "When a Visit method returns false, no descendant or comment of that element is visited and the traversal continues with the next sibling as if the element had no children.", "quantifier": "every syntax tree and every visitor", "why_tests_cant": "All trees and all visitor behaviours, including stateful ones.", "anchors": ["parser/visitor.go:Visitor", "parser/message.go:Accept"]}
{"id": "C40", "title": "Accept never panics on a tree Parse returned", "statement": "Proto.Accept does not panic on a tree returned by Parse. Violated when the file contains a top-level ';'; it panics exactly on the trees that contain a nil element.", "quantifier": "every tree and every visitor", "why_tests_cant": "All trees.", "anchors": ["parser/proto.go:Accept", "parser/proto.go:parseProtoBody"]}
{"id": "C41", "title": "Comment.Lines reconstructs the comment", "statement": "Joining Lines with newlines and putting the comment markers back gives Raw, for every comment the scanner can produce; no line contains a newline.", "quantifier": "every comment", "why_tests_cant": "All comment texts, including /**/ and // with embedded markers.", "anchors": ["parser/comment.go:Lines", "parser/comment.go:IsCStyle"]}
{"id": "C42", "title": "Options: default permissive, last one wins, independent", "statement": "Parse without options is permissive; the effective value of each option is that of its last occurrence, whatever the order and number of the others; WithDebug influences neither the tree nor the position, expected and found parts of an error: it only appends the place in the library's source to the text of errors raised in the lexer, which all other errors carry in any case.", "quantifier": "every list of options and every input", "why_tests_cant": "All option lists.", "anchors": ["protoparser.go:Parse", "protoparser.go:Option", "lexer/error.go:unexpected", "parser/meta/error.go:Error"]}
{"id": "C43", "title": "Every statement of an accepted body is represented", "statement": "Every non-empty statement in the body of an accepted enum, message or extend is represented by a node. Violated: 'enum E { FOO ; }' is accepted as one empty statement, the text FOO is dropped.", "quantifier": "every NUL-free input that parses", "why_tests_cant": "All inputs; error recovery shows only on malformed statements.", "anchors": ["parser/enum.go:parseEnumBody", "parser/message.go:parseMessageBody", "parser/extend.go:parseExtendBody"]}
{"id": "C44", "title": "An import is accepted only in its three forms", "statement": "ParseImport accepts exactly import, import public and import weak followed by a string and a semicolon, and the Modifier tells which. Violated: any single token is accepted in place of the modifier.", "quantifier": "every NUL-free input", "why_tests_cant": "All tokens in the modifier position.", "anchors": ["parser/import.go:ParseImport"]}
{"id": "C45", "title": "Layout does not matter", "statement": "Two layouts of the same document (different white space, line breaks and comments between the tokens) give trees that are equal once comments and positions are erased.", "quantifier": "every document and every pair of layouts", "why_tests_cant": "A relation between runs on infinitely many pairs.", "anchors": ["protoparser.go:Parse"]}
{"id": "C46", "title": "Offsets are byte offsets of the UTF-8 input", "statement": "For an input of valid UTF-8 bytes, the offset of a position is the index of the corresponding byte, and decoding the bytes gives back the runes that were encoded; the reader delivers every rune. Violated for invalid UTF-8: a bad byte counts three.", "quantifier": "every byte string", "why_tests_cant": "All byte strings, including truncated and overlong sequences.", "anchors": ["lexer/scanner/scanner.go:read", "lexer/scanner/position.go:Advance"]}
{"id": "C47", "title": "Adjacent string literals are concatenated", "statement": "In permissive mode ReadConstant merges adjacent string literals into one constant whose content is the concatenation of the contents. Violated: trimming removes escaped quotes next to the delimiter ('\"a\\\\\"\"' loses its last quote); holds for literals with the same delimiter none of which has an escaped delimiter as its last character.", "quantifier": "every sequence of string literals and every layout", "why_tests_cant": "Unbounded number of literals.", "anchors": ["lexer/constant.go:mergeMultilineStrLit"]}
{"id": "C48", "title": "Declarations keep the last value of each key", "statement": "ParseDeclaration accepts any number of its five keys in any order, with commas optional, and each field of the result is the value of the last occurrence of its key (zero value if absent).", "quantifier": "every sequence of declaration items and every layout", "why_tests_cant": "Unbounded item sequences.", "anchors": ["parser/declaration.go:ParseDeclaration"]}
{"id": "C49", "title": "The concrete reader buffer and column table behave like an ideal text cursor", "statement": "The scanner's push-back stack over a buffered reader and its line-to-column table behave, for every sequence of read, peek, unread, scan and undo operations, like a cursor in an immutable text with a stack of line ends.", "quantifier": "every input and every sequence of operations", "why_tests_cant": "Every history of operations.", "anchors": ["lexer/scanner/scanner.go:read", "lexer/scanner/scanner.go:unread", "lexer/scanner/position.go:columns"]}
{"id": "C50", "title": "Errors are reported at the offending token", "statement": "When a lexical or syntax error is returned directly by a parser function, its position is a position of the source text, with line and column consistent with its offset, and never lies beyond the end of the input. It is not reported late: the tokens before the position are the beginning of some valid file, so the first token that cannot continue a file is not before it.", "quantifier": "every NUL-free input on which Parse fails without having recovered from a failed group", "why_tests_cant": "All failing inputs.", "anchors": ["parser/error.go:unexpected", "lexer/error.go:unexpected", "lexer/scanner/error.go:unexpected"]}
{"id": "C51", "title": "Comments are attached to the statement they stand at", "statement": "The comments directly before a statement are its Comments, the comment that starts on the line of its last token is its InlineComment, the comment that starts on the line of a block's left curly is its InlineCommentBehindLeftCurly, and the comments between the tokens of the header of an rpc are, in order, its EmbeddedComments; every comment of the text goes to at most one place, the leading comments of the file to both the syntax and the edition statement, and the comments lost are exactly those in the places listed in Spec/Comments.lean.", "quantifier": "every NUL-free input that parses without having recovered from a failed group, every option", "why_tests_cant": "Comments may stand between any two tokens of any file; attachment depends on line breaks, look-ahead and put-back at every one of these places.", "anchors": ["parser/comment.go:ParseComments", "parser/inlineComment.go:parseInlineComment", "parser/inlineComment.go:MaybeScanInlineComment", "parser/message.go:parseMessageBody", "parser/oneof.go:ParseOneof", "parser/extensions.go:parseDeclarations", "parser/proto.go:ParseProto", "parser/service.go:parseRPC", "lexer/lexer.go:FindMidComments"]}
{"id": "C52", "title": "The outcome of Parse is unique", "statement": "For a given input and options there is at most one outcome: a tree, an error or a panic reached within some number of loop iterations and nesting levels is the one reached with any larger number, so the bound that makes the model total is not observable.", "quantifier": "every input (also with NUL and groups), every option list, all pairs of bounds", "why_tests_cant": "It relates all runs under all bounds.", "anchors": ["protoparser.go:Parse", "parser/message.go:parseMessageBody", "parser/proto.go:parseProtoBody"]}
{"id": "C53", "title": "Every body holds only the kinds of nodes that belong there", "statement": "In a tree that Parse returns, a file holds imports, packages, options, messages, enums, services, extends and empty statements; a message or group holds fields, groups, maps, oneofs, enums, messages, options, extends, reserved, extensions and empty statements; an enum holds options, values, reserved and empty statements; an extend holds fields and empty statements; a service holds options, rpcs and empty statements. Comments are elements only with WithBodyIncludingComments and only behind all statements of the body. A nil element stands directly behind every empty statement of the file and nowhere else.", "quantifier": "every input (also with NUL, groups, recovered errors), every option list, every nesting depth", "why_tests_cant": "A type switch over a body must be exhaustive for all trees of all inputs.", "anchors": ["protoparser.go:Parse", "parser/proto.go:parseProtoBody", "parser/message.go:parseMessageBody", "parser/enum.go:parseEnumBody", "parser/extend.go:parseExtendBody", "parser/service.go:parseServiceBody"]}
{"id": "C54", "title": "The text of a position identifies the place", "statement": "Position.String gives the same text for two positions exactly if their lines, columns and file names agree, where an absent file name is shown as <input>; for two places of one source text the texts differ.", "quantifier": "all positions (also negative ones and file names with colons), all texts and all pairs of places in them", "why_tests_cant": "It is a statement about all pairs of positions.", "anchors": ["parser/meta/position.go:String", "lexer/scanner/position.go:String"]}
{"id": "C55", "title": "The text of an error shows what was found", "statement": "From the text of an error the text found at its first fault can be recovered, whatever characters it holds and wherever in the library the error was raised; if the fault is at a token, so can the text of the token, its kind, and its line, column and file name.", "quantifier": "all errors, all found texts, every table of printable runes", "why_tests_cant": "Found texts are arbitrary and may contain quotes, backslashes and the words of the message itself.", "anchors": ["parser/meta/error.go:Error", "parser/error.go:unexpected", "lexer/error.go:unexpected", "lexer/scanner/error.go:unexpected", "parser/message.go:parseMessageBodyStatementErr"]}
{"id": "C56", "title": "What becomes of every well-formed file", "statement": "For every document of the supported grammar, top-level semicolons of their own included, and every layout of its tokens, Parse either returns the tree of the document (with a nil element behind every top-level semicolon of its own), or panics; it panics if and only if in that layout a comment stands behind such a semicolon on the same line. No other outcome is possible.", "quantifier": "every document (unbounded nesting and sizes) and every layout of it", "why_tests_cant": "A round trip over an infinite language, with an exact condition on the layout.", "anchors": ["protoparser.go:Parse", "parser/proto.go:parseProtoBody", "parser/inlineComment.go:MaybeScanInlineComment"]}
{"id": "C57", "title": "An error does not claim to have found what it expected", "statement": "Every fault of an error of Parse says which of a fixed list of things was expected, and the token text it reports as found is not one of these. Violated in the declarations of an extensions statement: behind a declaration the token after the offending one is reported, so `declaration = {number: 4} x ]` says that ] was found and ', or ]' expected; and after a trailing comma } is reported as found and as expected.", "quantifier": "every NUL-free input, all options, every error", "why_tests_cant": "There are 63 texts raised from over a hundred places; which token is current at each depends on the history of put-back tokens.", "anchors": ["parser/error.go:unexpected", "lexer/error.go:unexpected", "parser/extensions.go:parseDeclarations", "parser/declaration.go:ParseDeclaration"]}
{"id": "C58", "title": "The error of a scan names the rune that is there", "statement": "If a scan reports an error, the error carries the position where the scanner stopped, and its rune is not one of those it says were expected; the rune is the next one of the text (NUL at its end), or, behind a slash that starts no comment, the last one read.", "quantifier": "every scanner state with a NUL-free rest, all modes", "why_tests_cant": "All texts and modes.", "anchors": ["lexer/scanner/scanner.go:Scan", "lexer/scanner/comment.go", "lexer/scanner/numberLit.go", "lexer/scanner/floatLit.go", "lexer/scanner/strLit.go", "lexer/scanner/error.go"]}
{"id": "C59", "title": "Version is the version written", "statement": "For every file with a syntax statement Version returns 2 or 3, and the quoted text is proto followed by this number.", "quantifier": "every NUL-free input, all options", "why_tests_cant": "All inputs: no other text is accepted between the quotes.", "anchors": ["parser/syntax.go:Version", "parser/syntax.go:ParseSyntax"]}
{"id": "C60", "title": "The error of UnorderedInterpret blames the first offending element", "statement": "UnorderedInterpret fails if and only if some element is not allowed where it stands; the error names the first such element, the kind of body, and from the outside in the messages, enums and services around it (not the extend).", "quantifier": "every tree (unbounded nesting)", "why_tests_cant": "All trees and all places for an offending element.", "anchors": ["interpret/unordered/proto.go:interpretProtoBody", "interpret/unordered/message.go:interpretMessageBody", "interpret/unordered/enum.go:interpretEnumBody", "interpret/unordered/service.go:interpretServiceBody", "interpret/unordered/extend.go:interpretExtendBody"]}
{"id": "C61", "title": "The text of an error shows what was expected", "statement": "Two errors of Parse with the same text have the same expected text at their first fault; the text of a single fault determines what was found, what was expected and the place in the library where it was raised.", "quantifier": "every pair of errors, every table of printable runes, every place", "why_tests_cant": "Found texts and file names are arbitrary; one expected text itself holds the closing bracket.", "anchors": ["parser/meta/error.go:Error", "parser/meta/error.go:SetOccured"]}
{"id": "C62", "title": "The tree is no larger than the input", "statement": "The number of statements in the tree that Parse returns, at any depth and including the statements inside oneofs, rpcs and extension ranges, is at most the number of semicolons and right curly braces in the input.", "quantifier": "every input, option list and returned tree", "why_tests_cant": "Sizes and nesting are unbounded, and the code puts text back and reads it again.", "anchors": ["go-protoparser.go:Parse", "parser/message.go:parseMessageBody", "parser/proto.go:ParseProto"]}
{"id": "C63", "title": "How the reader delivers the bytes does not matter", "statement": "Whatever sizes the reads of the io.Reader have, whether the end of the input is reported with the last bytes or behind them, and whatever the size of the buffer is, the scanner shows the tokens, texts, positions, errors, raw texts and comments of the decoded bytes; a rune may arrive in pieces.", "quantifier": "every io.Reader (an arbitrary state machine) that delivers the bytes with fewer than 100 empty reads in a row and then fails for ever, every byte sequence, every buffer size of at least 4, every sequence of calls of a client", "why_tests_cant": "The sequence of read sizes is a schedule chosen by the environment; tests use strings.Reader.", "anchors": ["lexer/scanner/scanner.go:read", "lexer/scanner/scanner.go:NewScanner", "protoparser.go:Parse"]}
{"id": "C64", "title": "A read error is reported", "statement": "If the io.Reader fails with an error other than io.EOF, Parse returns an error.", "quantifier": "every io.Reader, every point at which it fails, every error", "why_tests_cant": "The failure can happen between any two bytes and go away again.", "anchors": ["lexer/scanner/scanner.go:read", "protoparser.go:Parse"]}
{"id": "C65", "title": "Statements are ordered and nested in the text as in the tree", "statement": "In the tree that Parse returns, the offsets of the syntax, the edition and the elements of the file increase from one statement to the next without overlap and lie within the input; the parts of every statement (body elements, oneof fields, oneof options, declarations, the request, response and options of an rpc) do so too and lie strictly between the first and the last token of the statement.", "quantifier": "every input that Parse accepts, every option, every statement at every depth", "why_tests_cant": "Tools that map a cursor to a node or replace text ranges rely on it for every tree; tests compare a few Meta values.", "anchors": ["parser/proto.go:ParseProto", "parser/message.go:ParseMessage", "parser/service.go:ParseService", "parser/oneof.go:ParseOneof", "parser/extensions.go:ParseExtensions", "parser/meta/meta.go:Meta"]}
{"id": "C66", "title": "A well-formed file is read exactly", "statement": "For every file of the language and every layout of it (any white space and comments between its tokens, groups and empty statements included) in which no comment stands on the line of a top-level semicolon of its own, Parse returns the tree that the file denotes; the input is a stream of exactly the tokens and comments of that tree, each node has the positions of its first and last token and the comments that stand at it, and the statements are ordered and nested in the text as in the tree.", "quantifier": "every file of the grammar, every layout, every list of options", "why_tests_cant": "It ranges over all files and all layouts; a test fixes one.", "anchors": ["protoparser.go:Parse", "parser/proto.go:ParseProto", "parser/message.go:parseMessageBody", "parser/groupField.go:ParseGroupField"]}
{"id": "C67", "title": "A tree can be printed and read back", "statement": "The strings and flags in the nodes of the tree that Parse returns suffice to write the file again: printing them in the order of the tree, with a blank between tokens, gives a text that Parse accepts with the same options, and the tree of that text is the same up to positions, comments and empty statements; printing that tree gives the same text again. Violated in permissive mode when a string literal ends with an escaped quote or adjacent literals have different quotes, because merging trims the content.", "quantifier": "every accepted input, every list of options", "why_tests_cant": "It ranges over all files; a node whose string loses something shows only for the file that has it.", "anchors": ["protoparser.go:Parse", "parser/proto.go:ParseProto", "lexer/constant.go:ReadConstant", "lexer/constant.go:mergeMultilineStrLit"]}
{"id": "C68", "title": "Reading a good file writes nothing to the log", "statement": "A call of Parse that accepts its input writes no error to the log of the process: whatever the parser looks at in advance, no look-ahead stops inside a literal or a comment. Holds for every well-formed file in every layout; violated for inputs accepted beyond the grammar, such as an import with a stray slash in place of its modifier, where the scanner's error is logged and otherwise ignored.", "quantifier": "every accepted input, every list of options", "why_tests_cant": "Tests compare the returned tree and error, not the log, and a look-ahead that hits a half-read literal depends on the combination of statement, layout and following token; it ranges over all files and layouts.", "anchors": ["protoparser.go:Parse", "lexer/lexer.go:NewLexer", "lexer/lexer.go:Next", "lexer/lexer.go:LatestErr", "parser/groupField.go:peekIsGroup"]}
{"id": "C69", "title": "The lexer shows the text, and its latest error is the latest one", "statement": "After any sequence of calls of the reading functions of a Lexer (Next, NextKeyword, NextStrLit, NextKeywordOrStrLit, NextNumberLit, NextLit, NextComment), some of them undone with UnNext, the next reading call returns. It skips only white space and, unless comments are asked for, complete comments. Either Token, Text, RawText and Pos describe the token that follows under the classes this function asks for, and nothing is reported; or no token can be read there, Token is ILLEGAL with an empty Text, exactly one error is reported, it names a rune that was not expected and stands behind what was read, and LatestErr returns it. Reads without an error and UnNext never change what LatestErr returns.", "quantifier": "every text without NUL, every history of reads and undone reads, every reading function", "why_tests_cant": "Tests read a few texts from the start; what a read shows depends on the place the history has led to, and that the mode of an earlier call does not leak into a later one must hold for every interleaving.", "anchors": ["lexer/lexer.go:Next", "lexer/lexer.go:nextWithSpecificMode", "lexer/lexer.go:LatestErr", "lexer/lexer.go:UnNext", "lexer/scanner/scanner.go:Scan"]}
{"id": "C70", "title": "Parse returns", "statement": "On a text without comments Parse returns a tree or an error: it neither panics nor runs for ever. The same holds for a text with comments unless it contains a semicolon with a comment behind it on its line, or both the letters `group` and the start of a block comment; each of these two occurs on an input on which Parse does not return (C20, C19).", "quantifier": "every text without NUL, every list of options", "why_tests_cant": "Absence of panics and of endless loops over all texts, of any length and nesting, also after failed groups, which put text back that is then read again.", "anchors": ["protoparser.go:Parse", "parser/proto.go:parseProtoBody", "parser/inlineComment.go:MaybeScanInlineComment", "parser/message.go:parseMessageBody"]}
{"id": "C71", "title": "The dump tells the tree", "statement": "The output of the dump command is a JSON text, and it identifies the result of the parse: two runs that print the same non-empty text have parsed the same tree, with all names, numbers, options, comments and positions, or with -unordered have made the same unordered tree.", "quantifier": "every two files (any bytes), every two settings of the flags with the same -unordered", "why_tests_cant": "The interfaces in the tree are printed without their types and strings are escaped; that no two trees of any size or depth print the same, is a statement about all pairs of trees.", "anchors": ["_example/dump/main.go:run", "parser/visitee.go:Visitee", "parser/proto.go:Proto", "interpret/unordered/proto.go:Proto"]}
{"id": "C72", "title": "The exit code of the dump command tells whether the tree was printed", "statement": "The dump command ends with the exit code 0 exactly if the file can be opened, is accepted by Parse and (with -unordered) can be interpreted; then it prints the tree. Otherwise the exit code is 1, nothing is printed to standard output and one message goes to standard error. The file name in the positions is the last component of the path.", "quantifier": "every file (any bytes, or one that cannot be opened), every setting of the flags", "why_tests_cant": "All files of any size and depth; the violation needs thousands of nested messages.", "anchors": ["_example/dump/main.go:run"]}
{"id": "C73", "title": "The exported statement parsers read the text piece by piece", "statement": "Whatever exported methods of a parser are called (ParseSyntax, ParseEdition, ParseImport, ParsePackage, ParseOption, ParseMessage, ParseEnum, ParseService, ParseExtend, ParseField, ParseMapField, ParseGroupField, ParseOneof, ParseReserved, ParseExtensions, ParseDeclaration, ParseComments, MaybeScanInlineComment, IsEOF), in whatever order, as long as they succeed they divide the text from its start into consecutive pieces, and each returns what stands in its piece: a statement of its kind with exactly these tokens, with Meta at its first and last token and with the comments inside of it; ParseComments all the comments up to the next token; IsEOF whether there is another token. Nothing is read twice or skipped between the calls.", "quantifier": "every NUL-free input, every configuration, every sequence of successful calls in which no failed group was recovered", "why_tests_cant": "All sequences of calls on all texts; the look-ahead of one call is put back and read by the next, whatever it is.", "anchors": ["parser/parser.go:Parser", "parser/parser.go:IsEOF", "parser/field.go:ParseField", "parser/message.go:ParseMessage", "parser/groupField.go:ParseGroupField", "parser/comment.go:ParseComments", "parser/inlineComment.go:MaybeScanInlineComment"]}
{"id": "C74", "title": "Every call of a statement parser returns, and its error tells a place of the text", "statement": "After any such sequence of calls each exported method returns a result or an error (it neither panics nor runs forever), and all the positions in the error are positions of the text.", "quantifier": "every NUL-free input, every configuration, every sequence of successful calls and every further call", "why_tests_cant": "All call histories on all texts.", "anchors": ["parser/parser.go:Parser", "parser/error.go:unexpected", "parser/message.go:ParseMessage", "parser/inlineComment.go:MaybeScanInlineComment"]}
{"id": "C75", "title": "The exported statement parsers accept every statement of their kind", "statement": "If a text begins with statements of the grammar, in any layout and with any comments between the tokens, then the exported parsers of these statements, called one after the other, all succeed and return these statements, whatever follows them in the text; calls of ParseComments, MaybeScanInlineComment and IsEOF in between change nothing.", "quantifier": "every sequence of statements of every kind, every layout and comments, every following text that is made of tokens", "why_tests_cant": "All statements in all layouts, called in all contexts, also those that Parse never calls them in.", "anchors": ["parser/parser.go:Parser", "parser/field.go:ParseField", "parser/oneof.go:ParseOneof", "parser/declaration.go:ParseDeclaration", "parser/groupField.go:ParseGroupField"]}
{"id": "C76", "title": "What a tree holds is well-formed whatever the text and whatever was called before", "statement": "For every text, also one with NUL bytes, and for every state of the parser, also after calls that failed: in every node that Parse or an exported statement parser returns, at every depth, names are identifiers, package names are dotted identifiers, numbers are integer literals (with a sign for enum values), ranges are valid, map keys have one of the twelve key types, a field has at most one label, a group name begins with a capital, a reserved statement has ranges or names but not both and not neither, an extensions statement has a range, and the version is proto2 or proto3. Strings are between two equal quotes. A type is a dotted name, or one that was cut behind a dot by a NUL.", "quantifier": "every text over all runes including NUL, every option list, every state of the parser that any history of calls can leave, every nesting depth", "why_tests_cant": "All texts and all histories, including those that failed half-way.", "anchors": ["protoparser.go:Parse", "parser/parser.go:Parser", "lexer/scanner/scanner.go:scan", "lexer/messageType.go:ReadMessageType"]}
{"id": "C77", "title": "Files can be joined", "statement": "For a well-formed file and a well-formed file without syntax, edition and byte order mark, both without stray semicolons at top level: Parse accepts each of them and also the two texts joined by a line break, and the tree of the joined text is the tree of the first with the elements of the second behind its own, but for comments and positions. So what Parse makes of a top-level statement does not depend on the other statements.", "quantifier": "all well-formed files of any size in every layout, with comments anywhere (also one at the end of the first text that no newline ends), all option lists", "why_tests_cant": "All pairs of files in all layouts.", "anchors": ["protoparser.go:Parse", "parser/proto.go:ParseProto", "parser/proto.go:parseProtoBody"]}
{"id": "C78", "title": "The dump can be read back by field names", "statement": "Whoever parses what the dump command printed by the grammar of JSON, in whatever way, and picks the fields of the objects by the names that the fields of the Go structs have, gets exactly the tree that was parsed, every value under its own name; with -unordered they get the unordered tree. What a node in a body is can be told from the names of its fields. A JSON text has only one reading.", "quantifier": "every file (any bytes), every setting of the flags, every reading of the output by the grammar of JSON", "why_tests_cant": "Golden files show a few trees; that no value is ever printed under a wrong name, lost, or readable in two ways is a statement about trees of every shape and depth.", "anchors": ["_example/dump/main.go:run", "parser/proto.go:Proto", "parser/visitee.go:Visitee", "interpret/unordered/proto.go:Proto"]}
{"id": "C79", "title": "Slices handed out and taken by the lexer", "statement": "The RawText that Next hands out is the caller's own: no later call changes it unless the caller gives it to UnNextTo. A caller who uses UnNextTo sees what they would see if slices were values: it puts back the text that the slice held when the caller got it.", "quantifier": "every text, every history of scans in any modes, put-backs and UnNextTo calls with slices from Next or made by the caller, every growth policy of append", "why_tests_cant": "Whether a slice is overwritten depends on which arrays are shared, on capacities and on what is read later; a test sees one history.", "anchors": ["lexer/lexer.go:UnNextTo", "lexer/lexer.go:Next", "lexer/scanner/scanner.go:LastScanRaw", "lexer/scanner/scanner.go:SetLastScanRaw", "lexer/scanner/scanner.go:read", "parser/groupField.go:peekIsGroup"]}
{"id": "C80", "title": "Parse depends on its reader only through the runes", "statement": "Parse on a reader returns the tree, error or panic that is determined by the runes the reader gives, and writes the same to the standard error: neither the pieces in which the bytes arrive, nor the size of the buffer, nor the push-back buffer, nor the sharing of the column map between positions can be observed in a tree, a position or an error.", "quantifier": "every reader of runes, every source of bytes and every way to cut them into pieces, every buffer size from 4 bytes, every text and every option", "why_tests_cant": "Tests read from strings in one piece. Whether a position survives put-backs across lines and pieces depends on every line length, on every place where a piece ends and on which comments were read before.", "anchors": ["protoparser.go:Parse", "lexer/lexer.go:NewLexer", "lexer/scanner/scanner.go:read", "lexer/scanner/scanner.go:UnScan", "lexer/scanner/position.go:AdvancedBulk", "lexer/scanner/position.go:Revert", "parser/comment.go:findEmbeddedComments"]}
{"id": "C81", "title": "A successful Parse has read its reader to the end", "statement": "If Parse returns a tree, its reader has been read to the end: nothing is left in it, all bytes of the source have been taken and none is in the buffer, and a second call of Parse on the same reader returns the tree of the empty file.", "quantifier": "every reader and every source of bytes in any pieces, every buffer size from 4 bytes, every NUL-free text that is accepted, every option of both calls", "why_tests_cant": "How far a buffered reader has read when the parser stops depends on the pieces, on the size of the buffer and on the look-ahead at the place where the parser stops; a test sees one combination.", "anchors": ["protoparser.go:Parse", "parser/proto.go:parseProtoBody", "parser/parser.go:IsEOF", "lexer/scanner/scanner.go:read", "lexer/scanner/scanner.go:NewScanner"]}
{"id": "C82", "title": "Readers that give the same runes are parsed alike", "statement": "Two calls of Parse with the same options on two readers that give the same runes, an error counting as a NUL, return the same tree, error or panic, write the same to the standard error and leave readers that again give the same runes. So do any sequences of calls of the exported methods of the parser, also behind calls that failed. Neither the pieces in which the bytes arrive nor the size of the buffer nor the kind of a read error can be seen.", "quantifier": "every pair of readers that give the same runes, also infinite ones, every pair of byte sources with errors at the same places, every two buffer sizes from 4 bytes, every text (NUL included), every option, every sequence of calls", "why_tests_cant": "A test compares two readers on one text. That no reader can be told from another one needs an argument about every state in which the parser reads the next rune.", "anchors": ["protoparser.go:Parse", "lexer/lexer.go:NewLexer", "lexer/scanner/scanner.go:NewScanner", "lexer/scanner/scanner.go:read", "lexer/scanner/scanner.go:peek", "parser/parser.go:NewParser"]}
{"id": "C83", "title": "What has not been read does not matter", "statement": "The result of a call of Parse that returns a tree or an error is determined by the runes that the call has read from its reader: on every other reader that begins with the same runes the call returns the same, writes the same to the standard error and reads as many runes. So a call that has failed within the first part of a text fails in the same way whatever follows that part. The same holds for all sequences of calls of the exported statement parsers, those behind a failed call included.", "quantifier": "every two readers, every option, every number of runes after which a call returns, every continuation of a text", "why_tests_cant": "A test tries some continuations of some texts; the claim is about all of them, and about everything that the parser keeps, looks ahead at and puts back.", "anchors": ["protoparser.go:Parse", "lexer/scanner/scanner.go:read", "lexer/scanner/scanner.go:peek", "lexer/scanner/scanner.go:UnScan", "lexer/lexer.go:UnNext"]}
{"id": "C84", "title": "Parse takes from its source at most what it reads and what its buffer holds", "statement": "A call of Parse does nothing with its reader but read runes from it. When it returns after n runes, it has taken at most 4*n bytes and one buffer (4096 bytes in bufio) from the io.Reader that it was given; the bytes beyond the runes that it has read are in its buffer, and all the rest is still in the source. It asks the source only when its buffer holds no rune: from a source that delivers at most d bytes at a time it has taken at most 4*n + d + 2 bytes, however large the buffer is; if the bytes are ASCII, at most n + d - 1, so that from a source that delivers byte by byte nothing is taken beyond the runes that have been read. What is true of a reader and stays true when it is read is true of it after the call, whatever the call returns. All this holds for all sequences of calls of the exported statement parsers as well.", "quantifier": "every io.Reader, in whatever pieces and with whatever errors it delivers, every buffer size, every option, every call that returns, every predicate on readers", "why_tests_cant": "A test can count the bytes that are taken for some texts; the bound has to hold for all texts, all ways of cutting them into pieces and all paths through the parser.", "anchors": ["protoparser.go:Parse", "lexer/scanner/scanner.go:NewScanner", "lexer/scanner/scanner.go:read", "lexer/lexer.go:NewLexer"]}
