{
 "claims": [
  {
   "property": "C01",
   "status": "proved",
   "theorems": [
    "Verif.Props.unscan_restores",
    "Verif.Props.unscan_unobservable"
   ],
   "note": "NUL-free text"
  },
  {
   "property": "C02",
   "status": "proved",
   "theorems": [
    "Verif.Props.peek_pure",
    "Verif.Props.peekN_pure"
   ],
   "note": "NUL-free text"
  },
  {
   "property": "C03",
   "status": "proved",
   "theorems": [
    "Verif.Props.scans_lossless",
    "Verif.Props.scans_lossless_eof"
   ],
   "note": "NUL-free text"
  },
  {
   "property": "C04",
   "status": "proved",
   "theorems": [
    "Verif.Props.position_exact"
   ],
   "note": "for every history of scans and undone scans; NUL-free text"
  },
  {
   "property": "C05",
   "status": "proved",
   "theorems": [
    "Verif.Props.text_at_position"
   ],
   "note": "NUL-free text"
  },
  {
   "property": "C06",
   "status": "proved",
   "theorems": [
    "Verif.Props.scan_skips_gap"
   ],
   "note": "NUL-free text"
  },
  {
   "property": "C07",
   "status": "proved",
   "theorems": [
    "Verif.Props.word_maximal",
    "Verif.Props.word_scanned"
   ],
   "note": "NUL-free text"
  },
  {
   "property": "C08",
   "status": "proved",
   "theorems": [
    "Verif.Props.word_scanned",
    "Verif.Props.word_class_unique",
    "Verif.Props.keyword_exact",
    "Verif.Props.literal_word_exact"
   ],
   "note": ""
  },
  {
   "property": "C09",
   "status": "proved",
   "theorems": [
    "Verif.Props.int_literal",
    "Verif.Props.int_scanned"
   ],
   "note": "NUL-free text"
  },
  {
   "property": "C10",
   "status": "partial",
   "theorems": [
    "Verif.Props.float_literal",
    "Verif.Props.float_scanned_partial",
    "Verif.Props.float_leading_zero_violation"
   ],
   "note": "The second half does not hold for literals with a superfluous leading zero (01.5); proved for all others."
  },
  {
   "property": "C11",
   "status": "proved",
   "theorems": [
    "Verif.Props.str_literal",
    "Verif.Props.str_scanned",
    "Verif.Props.grammar_str",
    "Verif.Props.unterminated"
   ],
   "note": "A backslash that starts no escape stands for itself (LooseValues), as in the code; every literal of the grammar is covered by grammar_str."
  },
  {
   "property": "C12",
   "status": "proved",
   "theorems": [
    "Verif.Props.comment_sound",
    "Verif.Props.comment_scanned",
    "Verif.Props.comment_unique",
    "Verif.Props.unterminated",
    "Verif.Props.no_comment"
   ],
   "note": ""
  },
  {
   "property": "C13",
   "status": "proved",
   "theorems": [
    "Verif.Props.eof_exact"
   ],
   "note": "NUL-free text"
  },
  {
   "property": "C14",
   "status": "proved",
   "theorems": [
    "Verif.Props.scan_total",
    "Verif.Props.scan_progress",
    "Verif.Props.scan_reaches_eof"
   ],
   "note": "NUL-free text"
  },
  {
   "property": "C15",
   "status": "proved",
   "theorems": [
    "Verif.Props.comments_once",
    "Verif.Props.mid_comments",
    "Verif.Props.comments_genuine",
    "Verif.Props.comments_distinct_offsets"
   ],
   "note": ""
  },
  {
   "property": "C16",
   "status": "proved",
   "theorems": [
    "Verif.Props.fullIdent_reads",
    "Verif.Props.fullIdent_complete",
    "Verif.Props.laid_any"
   ],
   "note": "Soundness and completeness, NUL-free text."
  },
  {
   "property": "C17",
   "status": "partial",
   "theorems": [
    "Verif.Props.messageType_reads_partial",
    "Verif.Props.messageType_begins",
    "Verif.Props.messageType_complete",
    "Verif.Props.messageType_violation"
   ],
   "note": "Completeness holds; soundness is violated at the end of the input and proved elsewhere; there too the tokens read begin a message type."
  },
  {
   "property": "C18",
   "status": "proved",
   "theorems": [
    "Verif.Props.constant_reads",
    "Verif.Props.constant_complete"
   ],
   "note": ""
  },
  {
   "property": "C19",
   "status": "partial",
   "theorems": [
    "Verif.Props.parse_terminates_partial",
    "Verif.Props.parse_terminates_noblock_partial",
    "Verif.Props.nonterminating_input",
    "Verif.Props.termination_violation",
    "Verif.Props.no_outcome"
   ],
   "note": "Violated by the code: on a concrete input of 167 characters Parse runs for ever (termination_violation: more than any bound, for every file name and with or without comments in bodies). Termination is proved for every NUL-free input that does not contain both 'group' and '/*' (any length and nesting): nonterminating_input says that an input without outcome contains both."
  },
  {
   "property": "C20",
   "status": "partial",
   "theorems": [
    "Verif.Props.panic_only_partial",
    "Verif.Props.panic_semicolon_partial",
    "Verif.Props.document_panics",
    "Verif.Props.panic_violation"
   ],
   "note": "Violated by the code; unless the text contains both `group` and `/*` a panic needs a semicolon and a comment behind it on its line (panic_semicolon_partial). It happens only at a top-level ';' after a well-formed prefix (unless a group failed; in particular inputs without group), and on well-formed files exactly if a comment stands behind a top-level ';' of its own on its line."
  },
  {
   "property": "C21",
   "status": "proved",
   "theorems": [
    "Verif.Props.parse_consumes",
    "Verif.Props.nul_violation"
   ],
   "note": "For inputs without NUL; the violation with NUL is proved."
  },
  {
   "property": "C22",
   "status": "proved",
   "theorems": [
    "Verif.Props.names_valid",
    "Verif.Props.head_valid",
    "Verif.Props.any_tree",
    "Verif.Props.names_violation"
   ],
   "note": "For texts without NUL, as the property says; names_violation shows that NUL has to be excluded, any_tree what holds with it."
  },
  {
   "property": "C23",
   "status": "proved",
   "theorems": [
    "Verif.Props.field_label",
    "Verif.Props.group_label",
    "Verif.Props.any_tree"
   ],
   "note": "any_tree covers texts with NUL too."
  },
  {
   "property": "C24",
   "status": "proved",
   "theorems": [
    "Verif.Props.map_key",
    "Verif.Props.any_tree"
   ],
   "note": "any_tree covers texts with NUL too."
  },
  {
   "property": "C25",
   "status": "proved",
   "theorems": [
    "Verif.Props.group_name",
    "Verif.Props.any_tree"
   ],
   "note": "any_tree covers texts with NUL too."
  },
  {
   "property": "C26",
   "status": "proved",
   "theorems": [
    "Verif.Props.reserved_exclusive",
    "Verif.Props.extensions_ranges",
    "Verif.Props.any_tree"
   ],
   "note": "any_tree covers texts with NUL too."
  },
  {
   "property": "C27",
   "status": "partial",
   "theorems": [
    "Verif.Props.parse_complete_partial",
    "Verif.Props.parse_plain",
    "Verif.Props.print_parse"
   ],
   "note": "Violated by the code in two ways, both exact in parse_document (C56): it panics where a comment stands on the line of a top-level semicolon of its own, and it puts a nil element behind such a semicolon. Floats with superfluous leading zeros are no spellings of the layouts (the scanner rejects them)."
  },
  {
   "property": "C28",
   "status": "partial",
   "theorems": [
    "Verif.Props.parse_grammar",
    "Verif.Props.parse_layout_partial",
    "Verif.Props.calls_read",
    "Verif.Props.group_text_violation"
   ],
   "note": "The layout half is proved, for Parse and for every sequence of calls of the exported statement parsers, for every input on which no failed group was recovered (Settled: by the run itself, or as no `group` in the text, no empty statement in a message, or a well-formed input); violated otherwise (text of a comment parsed as a field after a failed group)."
  },
  {
   "property": "C29",
   "status": "partial",
   "theorems": [
    "Verif.Props.meta_delimits_partial",
    "Verif.Props.calls_read",
    "Verif.Props.meta_violation"
   ],
   "note": "Under the condition of C28: no failed group was recovered. False without it: meta_violation is an accepted input with a statement whose Meta.Pos is no position of the text."
  },
  {
   "property": "C30",
   "status": "proved",
   "theorems": [
    "Verif.Props.comments_exact",
    "Verif.Props.inline_exact"
   ],
   "note": ""
  },
  {
   "property": "C31",
   "status": "partial",
   "theorems": [
    "Verif.Props.comments_kept_partial",
    "Verif.Props.comments_lost_violation"
   ],
   "note": "Violated by the code; every comment behind the head of the file is in the tree unless it stands in a lossy place (inside a simple statement, outside of the curlies of a block, in an empty block, before an empty statement)."
  },
  {
   "property": "C32",
   "status": "proved",
   "theorems": [
    "Verif.Props.body_comments_outcome",
    "Verif.Props.no_body_comments",
    "Verif.Props.body_comments_only_add",
    "Verif.Props.body_comments_error"
   ],
   "note": "No hypothesis on the input; proved by simulating the two runs function by function."
  },
  {
   "property": "C33",
   "status": "proved",
   "theorems": [
    "Verif.Props.filename_only",
    "Verif.Props.filename_everywhere",
    "Verif.Props.filename_of_file"
   ],
   "note": "No hypothesis on the input. `AlikeProto (Renamed f g)` says that the two trees agree in everything but the file names of positions, which are f and g."
  },
  {
   "property": "C34",
   "status": "proved",
   "theorems": [
    "Verif.Props.permissive_accepts",
    "Verif.Props.default_accepts"
   ],
   "note": "NUL-free inputs. The relation of the trees is Spec.Relaxed; it says nothing about the comments inside rpc headers."
  },
  {
   "property": "C35",
   "status": "proved",
   "theorems": [
    "Verif.Props.mark_ignored",
    "Verif.Props.mark_needless",
    "Verif.Props.late_mark"
   ],
   "note": "NUL-free texts. late_mark shows why the text must not begin with a mark behind white space or comments."
  },
  {
   "property": "C36",
   "status": "proved",
   "theorems": [
    "Verif.Props.unordered_sorts",
    "Verif.Props.message_nothing_dropped",
    "Verif.Props.proto_nothing_dropped",
    "Verif.Props.small_nothing_dropped"
   ],
   "note": "Edition is not part of the result type, as in the code."
  },
  {
   "property": "C37",
   "status": "partial",
   "theorems": [
    "Verif.Props.unordered_succeeds_iff",
    "Verif.Props.parsed_unordered_partial",
    "Verif.Props.unordered_service_violation"
   ],
   "note": "Violated by the code; proved: the exact success condition on trees, and that for trees returned by Parse without body comments it is the absence of empty statements in the file and in its services."
  },
  {
   "property": "C38",
   "status": "proved",
   "theorems": [
    "Verif.Props.accept_is_walk",
    "Verif.Props.accept_preorder",
    "Verif.Props.accept_elements"
   ],
   "note": ""
  },
  {
   "property": "C39",
   "status": "proved",
   "theorems": [
    "Verif.Props.accept_is_walk",
    "Verif.Props.accept_prune"
   ],
   "note": ""
  },
  {
   "property": "C40",
   "status": "partial",
   "theorems": [
    "Verif.Props.accept_no_panic",
    "Verif.Props.accept_halts",
    "Verif.Props.accept_panics_iff",
    "Verif.Props.parsed_accept_partial",
    "Verif.Props.parsed_accept_panics"
   ],
   "note": "Violated by the code for a top-level ';'; panics exactly on the trees with a nil element, which for trees returned by Parse are those with an empty statement in the file."
  },
  {
   "property": "C41",
   "status": "proved",
   "theorems": [
    "Verif.Props.comment_lines",
    "Verif.Props.comment_lines_single"
   ],
   "note": ""
  },
  {
   "property": "C42",
   "status": "proved",
   "theorems": [
    "Verif.Props.config_last_wins",
    "Verif.Props.parse_options",
    "Verif.Props.parse_debug",
    "Verif.Props.parse_commute",
    "Verif.Props.error_text_place",
    "Verif.Props.debug_text_same",
    "Verif.Props.debug_text"
   ],
   "note": ""
  },
  {
   "property": "C43",
   "status": "partial",
   "theorems": [
    "Verif.Props.nothing_dropped_partial",
    "Verif.Props.parse_grammar",
    "Verif.Props.dropped_violation"
   ],
   "note": "Violated by the code; holds for trees without empty statements. parse_grammar says what can be lost otherwise: before the semicolon of an empty statement the unfinished beginning of one field or enum value (Spec.Cut), in a reserved statement its ranges."
  },
  {
   "property": "C44",
   "status": "partial",
   "theorems": [
    "Verif.Props.import_reads_partial",
    "Verif.Props.import_complete",
    "Verif.Props.import_violation"
   ],
   "note": "Violated by the code; the three forms are accepted, and the only other form has one other token, no string, in place of the modifier."
  },
  {
   "property": "C45",
   "status": "partial",
   "theorems": [
    "Verif.Props.layout_irrelevant_partial",
    "Verif.Props.document_panics"
   ],
   "note": "For every document and every two layouts on which the code does not panic; document_panics says on which it does."
  },
  {
   "property": "C46",
   "status": "proved",
   "theorems": [
    "Verif.Props.decode_append",
    "Verif.Props.decode_encode",
    "Verif.Props.decode_total",
    "Verif.Props.decodes_offset",
    "Verif.Props.decodes_valid",
    "Verif.Props.offset_is_index",
    "Verif.Props.parseBytes_encode",
    "Verif.Props.statement_offset_partial",
    "Verif.Props.offset_violation"
   ],
   "note": "Every valid UTF-8 input; for invalid bytes the exact error (two per bad byte) and a witness. The link to statement positions is subject to the restriction of C28."
  },
  {
   "property": "C47",
   "status": "partial",
   "theorems": [
    "Verif.Props.strings_joined",
    "Verif.Props.strings_concatenated_partial",
    "Verif.Props.strings_violation"
   ],
   "note": "Violated by the code for escaped quotes next to a delimiter and for mixed quotes; proved for literals with the same quotes none of which ends with an escaped one."
  },
  {
   "property": "C48",
   "status": "proved",
   "theorems": [
    "Verif.Props.declaration_reads",
    "Verif.Props.declaration_complete"
   ],
   "note": ""
  },
  {
   "property": "C49",
   "status": "proved",
   "theorems": [
    "Verif.Props.scan_is_prog",
    "Verif.Props.run_same",
    "Verif.Props.buffer_unobservable",
    "Verif.Props.fair_of_no_bulk",
    "Verif.Props.comment_bulk_fair",
    "Verif.Props.shared_columns_violation"
   ],
   "note": "Every client history of scans, put-backs and raw text replacements. Advancing a copied position writes to the shared column map; this is unobservable when it goes over text already passed, as the parser does for comments, and a witness shows that the condition is needed."
  },
  {
   "property": "C50",
   "status": "partial",
   "theorems": [
    "Verif.Props.error_positions_partial",
    "Verif.Props.error_position_partial",
    "Verif.Props.error_begun_partial",
    "Verif.Props.error_lead_begun_partial",
    "Verif.Props.begun_message",
    "Verif.Props.error_position_violation",
    "Verif.Props.error_position_group_violation",
    "Verif.Props.error_begun_violation"
   ],
   "note": "Every run in which no group failed (SettledErr; groups that parse are covered). Every position is in the text and the tokens before it begin a file (up to one token behind a declaration). Violated in strict mode for the second of two joined errors, after failed groups, and behind declarations."
  },
  {
   "property": "C51",
   "status": "proved",
   "theorems": [
    "Verif.Props.parse_comments",
    "Verif.Props.statement_comments",
    "Verif.Props.commented_accepted",
    "Verif.Props.embedded_accepted"
   ],
   "note": "For every NUL-free input and every run that did not recover from a failed group (Settled), as the property says."
  },
  {
   "property": "C52",
   "status": "proved",
   "theorems": [
    "Verif.Props.parse_mono",
    "Verif.Props.parses_unique"
   ],
   "note": "No hypothesis on the input."
  },
  {
   "property": "C53",
   "status": "proved",
   "theorems": [
    "Verif.Props.parse_shape"
   ],
   "note": "No hypothesis on the input."
  },
  {
   "property": "C54",
   "status": "proved",
   "theorems": [
    "Verif.Props.position_text",
    "Verif.Props.position_text_unique"
   ],
   "note": ""
  },
  {
   "property": "C55",
   "status": "proved",
   "theorems": [
    "Verif.Props.error_text_found",
    "Verif.Props.found_text",
    "Verif.Props.error_text_place"
   ],
   "note": "For every table of printable runes."
  },
  {
   "property": "C56",
   "status": "proved",
   "theorems": [
    "Verif.Props.parse_document",
    "Verif.Props.document_panics"
   ],
   "note": "NUL-free inputs; the layouts exclude floats with superfluous leading zeros (finding 13)."
  },
  {
   "property": "C57",
   "status": "partial",
   "theorems": [
    "Verif.Props.error_expected_partial",
    "Verif.Props.kinds_unique",
    "Verif.Props.error_expected_violation",
    "Verif.Props.error_expected_brace_violation"
   ],
   "note": "Two texts about declarations are excepted; both are shown to be violated."
  },
  {
   "property": "C58",
   "status": "proved",
   "theorems": [
    "Verif.Props.scan_expected"
   ],
   "note": "NUL-free rests."
  },
  {
   "property": "C59",
   "status": "proved",
   "theorems": [
    "Verif.Props.version_written"
   ],
   "note": "NUL-free inputs."
  },
  {
   "property": "C60",
   "status": "proved",
   "theorems": [
    "Verif.Props.unordered_blames"
   ],
   "note": "All trees."
  },
  {
   "property": "C61",
   "status": "proved",
   "theorems": [
    "Verif.Props.fault_text",
    "Verif.Props.error_text_expected"
   ],
   "note": "NUL-free inputs; for every table of printable runes."
  },
  {
   "property": "C62",
   "status": "partial",
   "theorems": [
    "Verif.Props.parse_size_partial",
    "Verif.Props.size_violation"
   ],
   "note": "Under the condition of C28: no failed group was recovered; a witness shows that failed groups make statements out of nothing."
  },
  {
   "property": "C63",
   "status": "proved",
   "theorems": [
    "Verif.Props.pieces_unobservable",
    "Verif.Props.pieces_of_text",
    "Verif.Props.pieces_delivers"
   ],
   "note": "At the level of the calls of the scanner, like C49: the parser is such a client."
  },
  {
   "property": "C64",
   "status": "partial",
   "theorems": [
    "Verif.Props.read_error_violation",
    "Verif.Props.read_error_is_nul_partial",
    "Verif.Props.faulty_delivers",
    "Verif.Props.parse_read_error_violation",
    "Verif.Props.parse_any_error_violation"
   ],
   "note": "Violated by the code: every error of the reader is taken for the end of the input, also by Parse itself, for all bytes and options (parse_any_error_violation). What holds: an error that goes away is a NUL."
  },
  {
   "property": "C65",
   "status": "partial",
   "theorems": [
    "Verif.Props.nesting_partial",
    "Verif.Props.nesting_violation",
    "Verif.Props.not_nested"
   ],
   "note": "Under the condition of C28: no failed group was recovered. False without it: nesting_violation is an accepted input whose tree has a message that begins before the message it is in, at a negative offset; not_nested states the negation."
  },
  {
   "property": "C66",
   "status": "proved",
   "theorems": [
    "Verif.Props.document_read"
   ],
   "note": "Files of the grammar without what the code accepts beyond it (C27)."
  },
  {
   "property": "C67",
   "status": "partial",
   "theorems": [
    "Verif.Props.print_accepted_partial",
    "Verif.Props.print_text_partial",
    "Verif.Props.print_read_partial",
    "Verif.Props.print_complete",
    "Verif.Props.print_stable",
    "Verif.Props.print_violation"
   ],
   "note": "Violated by the code in permissive mode where merging damages a string literal (C47); proved for every other accepted file in which no failed group was recovered, also for what is accepted beyond the grammar."
  },
  {
   "property": "C68",
   "status": "partial",
   "theorems": [
    "Verif.Props.document_quiet_partial",
    "Verif.Props.plain_quiet",
    "Verif.Props.log_violation"
   ],
   "note": "Proved for every well-formed file in every layout (a comment on the line of a top-level semicolon of its own excluded: the code panics there). Violated by the code beyond the grammar: `import / \"a\";` is accepted and an error is logged."
  },
  {
   "property": "C69",
   "status": "proved",
   "theorems": [
    "Verif.Props.lexer_read",
    "Verif.Props.lexer_undo"
   ],
   "note": "Every reading function with its classes of tokens, every history."
  },
  {
   "property": "C70",
   "status": "proved",
   "theorems": [
    "Verif.Props.parse_returns",
    "Verif.Props.uncommented_returns"
   ],
   "note": ""
  },
  {
   "property": "C71",
   "status": "proved",
   "theorems": [
    "Verif.Props.dump_faithful",
    "Verif.Props.dump_faithful_unordered",
    "Verif.Props.dump_json"
   ],
   "note": "Files whose bytes are read without error. An empty output (C72) is excluded."
  },
  {
   "property": "C72",
   "status": "partial",
   "theorems": [
    "Verif.Props.dump_code",
    "Verif.Props.dump_failure",
    "Verif.Props.dump_unopened",
    "Verif.Props.runs_unique",
    "Verif.Props.base_name",
    "Verif.Props.dump_prints_partial",
    "Verif.Props.dump_silent",
    "Verif.Props.dump_violation",
    "Verif.Props.dump_unordered_violation"
   ],
   "note": "Exit codes and messages are proved for all files and flags. Violated by the code for printing: above 4998 levels of nesting (3332 levels of messages with -unordered) nothing is printed and the exit code is 0; printing is proved below 4996 levels (3331 with -unordered)."
  },
  {
   "property": "C73",
   "status": "proved",
   "theorems": [
    "Verif.Props.calls_read",
    "Verif.Props.runK_true"
   ],
   "note": "Runs in which a call had to recover from a failed group are excluded, as the property says; the code reads text twice there (C28)."
  },
  {
   "property": "C74",
   "status": "partial",
   "theorems": [
    "Verif.Props.call_returns_partial",
    "Verif.Props.call_error_position_partial",
    "Verif.Props.call_returns_violation",
    "Verif.Props.call_inline_violation",
    "Verif.Props.error_position_violation",
    "Verif.Props.error_position_group_violation"
   ],
   "note": "Violated by the code for returning: message and group parsers on some texts that contain both `group` and `/*` (every other text is covered), and an inline comment for nil. Violated for positions in strict mode (the second of two joined errors) and after failed groups."
  },
  {
   "property": "C75",
   "status": "proved",
   "theorems": [
    "Verif.Props.calls_complete"
   ],
   "note": ""
  },
  {
   "property": "C76",
   "status": "proved",
   "theorems": [
    "Verif.Props.any_tree",
    "Verif.Props.any_call",
    "Verif.Props.names_violation",
    "Verif.Props.nul_cut"
   ],
   "note": "No hypothesis on the text or on the state of the parser."
  },
  {
   "property": "C77",
   "status": "proved",
   "theorems": [
    "Verif.Props.join_files",
    "Verif.Props.join_violation"
   ],
   "note": "join_violation shows why stray semicolons are excluded."
  },
  {
   "property": "C78",
   "status": "proved",
   "theorems": [
    "Verif.Props.dump_reads",
    "Verif.Props.dump_reads_unordered"
   ],
   "note": "For runs that print something (C72 says when)."
  },
  {
   "property": "C79",
   "status": "partial",
   "theorems": [
    "Verif.Props.raw_kept",
    "Verif.Props.slices_are_values_partial",
    "Verif.Props.slices_violation"
   ],
   "note": "UnNextTo keeps the slice of the caller and later scans write to it, so that a slice cannot be used twice: the theorem is for callers who give each slice at most once."
  },
  {
   "property": "C80",
   "status": "partial",
   "theorems": [
    "Verif.Props.reader_parse_partial",
    "Verif.Props.reader_parse_nogroup_partial",
    "Verif.Props.reader_parse_wellformed",
    "Verif.Props.reader_parse_plain",
    "Verif.Props.reader_calls_partial",
    "Verif.Props.bytes_parse_partial",
    "Verif.Props.text_parse_partial"
   ],
   "note": "Every NUL-free text and every run in which no failed group was recovered; every accepted file without services, with NUL and failed groups as well; and all sequences of calls of the exported methods but ParseService, without any condition on the text. That the reader matters only through its runes is proved without conditions (C82). Missing: that the push-back buffer and the shared map cannot be seen, for files with services that have NUL or failed groups, and for rejected files with them."
  },
  {
   "property": "C81",
   "status": "partial",
   "theorems": [
    "Verif.Props.reader_drained_partial",
    "Verif.Props.parse_twice_partial",
    "Verif.Props.accepted_taken_partial",
    "Verif.Props.accepted_read_partial",
    "Verif.Props.nul_left_violation"
   ],
   "note": "Every NUL-free text and every run in which no failed group was recovered. With NUL it is false: nul_left_violation is a call that succeeds and leaves a word in its reader."
  },
  {
   "property": "C82",
   "status": "proved",
   "theorems": [
    "Verif.Props.readers_alike",
    "Verif.Props.sources_alike",
    "Verif.Props.source_text",
    "Verif.Props.calls_alike"
   ],
   "note": "No condition on the text, the fuel or the path through the parser."
  },
  {
   "property": "C83",
   "status": "proved",
   "theorems": [
    "Verif.Props.unread_irrelevant",
    "Verif.Props.rest_irrelevant",
    "Verif.Props.calls_unread_irrelevant",
    "Verif.Props.calls_rest_irrelevant"
   ],
   "note": "For calls that return; a read error counts as the rune NUL. The two runs have the same iteration bounds (left), which are not part of the code."
  },
  {
   "property": "C84",
   "status": "proved",
   "theorems": [
    "Verif.Props.source_taken",
    "Verif.Props.slow_source_taken",
    "Verif.Props.ascii_source_taken",
    "Verif.Props.keys_taken",
    "Verif.Props.calls_source_taken",
    "Verif.Props.calls_slow_source_taken",
    "Verif.Props.calls_ascii_source_taken",
    "Verif.Props.calls_keep",
    "Verif.Props.calls_related",
    "Verif.Props.reader_keeps",
    "Verif.Props.readers_related",
    "Verif.Props.text_left",
    "Verif.Props.text_left_exact",
    "Verif.Props.calls_left_exact"
   ],
   "note": "For calls that return. The bound is for the modelled bufio.Reader (fill, ReadRune); the default size 4096 is one of the sizes."
  }
 ]
}