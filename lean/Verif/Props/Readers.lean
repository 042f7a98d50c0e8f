import Verif.Proofs.MachineAlikeBlock
import Verif.Spec.Counting
import Verif.Props.Machine
import Verif.Props.Calls

/-!
# Two readers that give the same runes (C80, C82, C83)

`Props/Machine.lean` compares a run on a reader with the run on an ideal cursor, under some conditions.  Here two runs
on two readers are compared, and there are none: any text, NUL and read errors in the middle included, any fuel, and
readers that never come to an end.
-/

set_option backward.isDefEq.respectTransparency false
set_option backward.dsimp.instances true

namespace Verif.Props
open Spec Lexer

variable {ρ ρ' : Type}

/-- Readers that give the same runes are related for ever. -/
@[instance_reducible] def linked (rd : RuneReader ρ) (rd' : RuneReader ρ') :
    letI : Source ρ := ⟨rd⟩
    letI : Source ρ' := ⟨rd'⟩
    Linked ρ ρ' :=
  letI : Source ρ := ⟨rd⟩
  letI : Source ρ' := ⟨rd'⟩
  { Link := SameRunes rd rd', Gone := fun _ => False, step := fun _ _ h => .inr h.step, gone := fun _ h => h }

theorem not_gone (rd : RuneReader ρ) (rd' : RuneReader ρ') {α : Type} (x : Res (Machine ρ) Err α) :
    letI : Source ρ := ⟨rd⟩
    letI : Source ρ' := ⟨rd'⟩
    letI : Linked ρ ρ' := linked rd rd'
    ¬ GoneRes ρ' x := by
  intro h
  cases x with
  | ok a k => exact h
  | err e k => exact h
  | halt _ => obtain ⟨_, h⟩ := h; exact h

/-- C82: calls of `Parse` on two readers that give the same runes end in the same way, write the same to the standard
error, and leave readers that give the same runes. -/
theorem readers_alike (rd : RuneReader ρ) (rd' : RuneReader ρ') {r : ρ} {r' : ρ'} (h : SameRunes rd rd' r r')
    (fuel left : Nat) (options : List ParseOpt) :
    parseReader rd fuel r left options = parseReader rd' fuel r' left options ∧
      loggedReader rd fuel r left options = loggedReader rd' fuel r' left options ∧
      match readerAfter rd fuel r left options, readerAfter rd' fuel r' left options with
      | some s, some s' => SameRunes rd rd' s s'
      | none, none => True
      | _, _ => False := by
  letI : Source ρ := ⟨rd⟩
  letI : Source ρ' := ⟨rd'⟩
  letI : Linked ρ ρ' := linked rd rd'
  have := Par.par_parseProto (ρ := ρ) (ρ' := ρ')
    { permissive := (configOf options).permissive, bodyIncludingComments := (configOf options).bodyIncludingComments,
      fuel }
    (Machine.new r left (configOf options).filename)
  have := (this.2 r' h).resolve_left (not_gone rd rd' _)
  rw [loggedReader_eq, loggedReader_eq]
  unfold parseReader readerAfter
  change ParRes (Machine.runProto fuel (configOf options) r left)
    (Machine.runProto fuel (configOf options) r' left) at this
  revert this
  cases Machine.runProto fuel (configOf options) r left with
  | ok a k =>
    cases Machine.runProto fuel (configOf options) r' left with
    | ok b k' => rintro ⟨rfl, s, rfl, hs⟩; exact ⟨rfl, rfl, hs⟩
    | err e k' => exact False.elim
    | halt h => exact False.elim
  | err e k =>
    cases Machine.runProto fuel (configOf options) r' left with
    | ok b k' => exact False.elim
    | err e k' => rintro ⟨rfl, s, rfl, hs⟩; exact ⟨rfl, rfl, hs⟩
    | halt h => exact False.elim
  | halt h =>
    cases Machine.runProto fuel (configOf options) r' left with
    | ok b k' => exact False.elim
    | err e k' => exact False.elim
    | halt h' =>
      intro e
      obtain rfl : h' = h := e
      cases h' <;> exact ⟨rfl, rfl, trivial⟩

/-- C82, for sources of bytes behind buffers: sources that deliver the same bytes, with errors at the same places, are
parsed alike, however they cut the bytes and whatever the sizes of the buffers are. -/
theorem sources_alike {σ τ : Type} {io : IOReader σ} {io' : IOReader τ} {s : σ} {s' : τ} {segs : List (List Nat)}
    (h : Delivers io s segs) (h' : Delivers io' s' segs) {size size' : Nat} (h4 : 4 ≤ size) (h4' : 4 ≤ size')
    (fuel left : Nat) (options : List ParseOpt) :
    parseReader (bufferedReader io size) fuel { src := s } left options =
        parseReader (bufferedReader io' size') fuel { src := s' } left options ∧
      loggedReader (bufferedReader io size) fuel { src := s } left options =
        loggedReader (bufferedReader io' size') fuel { src := s' } left options :=
  have := readers_alike _ _ (.of_gives (gives_bufio h4 h) (gives_bufio h4' h')) fuel left options
  ⟨this.1, this.2.1⟩

/-- The text itself, rune by rune, is one of these readers. -/
theorem gives_text (src : Str) : Gives textReader src src :=
  ⟨fun r t => r = t, rfl, ⟨fun r h => by subst h; exact ⟨rfl, rfl⟩, fun r ch t h => by subst h; exact ⟨rfl, rfl⟩⟩⟩

/-- C82, for one source: `Parse` on the bytes is `Parse` on the runes that they decode to. -/
theorem source_text {σ : Type} {io : IOReader σ} {s : σ} {segs : List (List Nat)} (h : Delivers io s segs)
    {size : Nat} (h4 : 4 ≤ size) (fuel left : Nat) (options : List ParseOpt) :
    parseReader (bufferedReader io size) fuel { src := s } left options =
        parseReader textReader fuel (runes segs) left options ∧
      loggedReader (bufferedReader io size) fuel { src := s } left options =
        loggedReader textReader fuel (runes segs) left options :=
  have := readers_alike _ _ (.of_gives (gives_bufio h4 h) (gives_text _)) fuel left options
  ⟨this.1, this.2.1⟩

/-- C64 is violated for `Parse` itself, for all bytes: whichever error is behind them, the outcome is that of the end
of the input. -/
theorem parse_any_error_violation (bytes : List Nat) (g g' : Nat → List Nat → Nat)
    (hg : ∀ n s, 0 < n → s ≠ [] → 0 < g n s) (hg' : ∀ n s, 0 < n → s ≠ [] → 0 < g' n s) (last : IOErr)
    {size size' : Nat} (h4 : 4 ≤ size) (h4' : 4 ≤ size') (fuel left : Nat) (options : List ParseOpt) :
    parseReader (bufferedReader (pieces g last) size) fuel { src := bytes } left options =
      parseReader (bufferedReader (pieces g' .eof) size') fuel { src := bytes } left options :=
  (sources_alike (pieces_delivers g hg last bytes) (pieces_delivers g' hg' .eof bytes) h4 h4' fuel left options).1

/-! ## C83: nothing that has not been read matters -/

/-- How often a call that returns has read its reader. -/
def runesRead (rd : RuneReader ρ) (fuel : Nat) (r : ρ) (left : Nat) (options : List ParseOpt := []) : Option Nat :=
  (readerAfter (counting rd) fuel (r, 0) left options).map Prod.snd

theorem counting_same (rd : RuneReader ρ) (r : ρ) : SameRunes rd (counting rd) r (r, 0) :=
  ⟨fun s s' => s'.1 = s, rfl, fun s s' h => by subst h; exact ⟨rfl, rfl⟩⟩

/-- Related as long as no more than `n` runes have been read. -/
@[instance_reducible] def linkedFor (rd : RuneReader ρ) (rd' : RuneReader ρ') (n : Nat) :
    letI : Source (ρ × Nat) := ⟨counting rd⟩
    letI : Source (ρ' × Nat) := ⟨counting rd'⟩
    Linked (ρ × Nat) (ρ' × Nat) :=
  letI : Source (ρ × Nat) := ⟨counting rd⟩
  letI : Source (ρ' × Nat) := ⟨counting rd'⟩
  { Link := fun s s' => s'.2 = s.2 ∧ s.2 ≤ n ∧ AgreeFor rd rd' (n - s.2) s.1 s'.1
    Gone := fun s => n < s.2
    step := by
      rintro ⟨r, c⟩ ⟨r', c'⟩ ⟨e, h1, h2⟩
      simp only at e h1 h2
      subst e
      by_cases h : n < c' + 1
      · exact .inl h
      · obtain ⟨j, hj⟩ : ∃ j, n - c' = j + 1 := ⟨n - c' - 1, by omega⟩
        rw [hj] at h2
        refine .inr ⟨h2.1, rfl, by show c' + 1 ≤ n; omega, ?_⟩
        have : n - (c' + 1) = j := by omega
        show AgreeFor rd rd' (n - (c' + 1)) _ _
        rw [this]
        exact h2.2
    gone := fun s h => Nat.lt_succ_of_lt h }

/-- C83: the outcome of a call of `Parse` that returns depends only on the runes that it has read.  On every other reader
that begins with these runes it returns the same, logs the same and reads as much. -/
theorem unread_irrelevant (rd : RuneReader ρ) (rd' : RuneReader ρ') {r : ρ} {r' : ρ'} {fuel left n : Nat}
    {options : List ParseOpt} (h : runesRead rd fuel r left options = some n) (ha : AgreeFor rd rd' n r r') :
    parseReader rd' fuel r' left options = parseReader rd fuel r left options ∧
      loggedReader rd' fuel r' left options = loggedReader rd fuel r left options ∧
      runesRead rd' fuel r' left options = some n := by
  obtain ⟨a1, a2, _⟩ := readers_alike _ _ (counting_same rd r) fuel left options
  obtain ⟨b1, b2, _⟩ := readers_alike _ _ (counting_same rd' r') fuel left options
  rw [a1, a2, b1, b2]
  letI : Source (ρ × Nat) := ⟨counting rd⟩
  letI : Source (ρ' × Nat) := ⟨counting rd'⟩
  letI : Linked (ρ × Nat) (ρ' × Nat) := linkedFor rd rd' n
  have := (Par.par_parseProto (ρ := ρ × Nat) (ρ' := ρ' × Nat)
    { permissive := (configOf options).permissive, bodyIncludingComments := (configOf options).bodyIncludingComments,
      fuel }
    (Machine.new (r, 0) left (configOf options).filename)).2 (r', 0) ⟨rfl, Nat.zero_le _, ha⟩
  unfold runesRead readerAfter at h ⊢
  rw [loggedReader_eq, loggedReader_eq]
  unfold parseReader
  change GoneRes (ρ' × Nat) (Machine.runProto fuel (configOf options) (r, 0) left) ∨
    ParRes (Machine.runProto fuel (configOf options) (r, 0) left)
      (Machine.runProto fuel (configOf options) (r', 0) left) at this
  revert this h
  cases Machine.runProto fuel (configOf options) (r, 0) left with
  | ok a k =>
    intro h
    have hc : k.scanner.reader.2 = n := Option.some.inj h
    rintro (g | g)
    · exact absurd (show n < k.scanner.reader.2 from g) (by omega)
    revert g
    cases Machine.runProto fuel (configOf options) (r', 0) left with
    | ok b k' => rintro ⟨rfl, s, rfl, hs⟩; exact ⟨rfl, rfl, congrArg some (hs.1.trans hc)⟩
    | err e k' => exact False.elim
    | halt h => exact False.elim
  | err e k =>
    intro h
    have hc : k.scanner.reader.2 = n := Option.some.inj h
    rintro (g | g)
    · exact absurd (show n < k.scanner.reader.2 from g) (by omega)
    revert g
    cases Machine.runProto fuel (configOf options) (r', 0) left with
    | ok b k' => exact False.elim
    | err e k' => rintro ⟨rfl, s, rfl, hs⟩; exact ⟨rfl, rfl, congrArg some (hs.1.trans hc)⟩
    | halt h => exact False.elim
  | halt _ => intro h; cases h

theorem agree_texts (t u v : Str) : ∀ n, n ≤ t.length → AgreeFor textReader textReader n (t ++ u) (t ++ v) := by
  induction t with
  | nil => intro n h; cases n with
    | zero => trivial
    | succ n => simp at h
  | cons ch t ih =>
    intro n h
    cases n with
    | zero => trivial
    | succ n => exact ⟨rfl, ih n (by simpa using h)⟩

/-- C83, for texts: if a call has returned within the first part of a text, it returns the same whatever follows. -/
theorem rest_irrelevant {t u : Str} {fuel left n : Nat} {options : List ParseOpt}
    (h : runesRead textReader fuel (t ++ u) left options = some n) (hn : n ≤ t.length) (v : Str) :
    parseReader textReader fuel (t ++ v) left options = parseReader textReader fuel (t ++ u) left options :=
  (unread_irrelevant _ _ h (agree_texts t u v n hn)).1

/-- `x;` is rejected at once: one rune behind the name has been read, and no file that begins like this is accepted. -/
example (v : Str) (left : Nat) (hl : left = 9) :
    (match parseReader textReader 3 (c!"x;" ++ v) left with | .error _ => true | _ => false) = true := by
  subst hl
  rw [rest_irrelevant (t := c!"x;") (u := []) (n := 2) (by decide +kernel) (by decide)]
  decide +kernel

/-! ## Calls of the exported methods -/

/-- A call of an exported method, as modelled in `Model/Machine.lean`. -/
def Request.machine [Source ρ] (cfg : Cfg) : Request → MP ρ Ret
  | .syntax_ => do return .syntax_ (← Machine.Parse.parseSyntax)
  | .edition => do return .edition (← Machine.Parse.parseEdition)
  | .importStmt => do return .node (.importStmt (← Machine.Parse.parseImport))
  | .package => do return .node (.package (← Machine.Parse.parsePackage))
  | .option => do return .node (.option (← Machine.Parse.parseOption cfg))
  | .message => do return .node (.message (← Machine.Parse.parseMessage cfg))
  | .enum => do return .node (.enum (← Machine.Parse.parseEnum cfg))
  | .service => do return .node (.service (← Machine.Parse.parseService cfg))
  | .extend => do return .node (.extend (← Machine.Parse.parseExtend cfg))
  | .field => do return .node (.field (← Machine.Parse.parseField cfg))
  | .mapField => do return .node (.mapField (← Machine.Parse.parseMapField cfg))
  | .groupField => do return .node (.groupField (← Machine.Parse.parseGroupField cfg))
  | .oneof => do return .node (.oneof (← Machine.Parse.parseOneof cfg))
  | .reserved => do return .node (.reserved (← Machine.Parse.parseReserved))
  | .extensions => do return .node (.extensions (← Machine.Parse.parseExtensions))
  | .declaration => do return .declaration (← Machine.Parse.parseDeclaration)
  | .comments => do return .comments (← Machine.Parse.parseComments)
  | .isEOF => do return .flag (← Machine.Parse.isEOF)
  | .inline v => do return .node (← Machine.Parse.maybeScanInlineComment v)

/-- What the calls return, one after the other, also those behind a call that failed. -/
def answers {σ : Type} (run : Request → M σ Err Ret) : List Request → σ → List (Outcome Ret)
  | [], _ => []
  | c :: cs, s =>
    match run c s with
    | .ok r s' => .ok r :: answers run cs s'
    | .err e s' => .error e :: answers run cs s'
    | .halt .panic => [.panic]
    | .halt .fuel => [.more]

theorem par_request [Source ρ] [Source ρ'] [Linked ρ ρ'] (cfg : Cfg) (c : Request) :
    Par (c.machine cfg : MP ρ Ret) (c.machine cfg : MP ρ' Ret) := by
  cases c with
  | syntax_ => exact Par.par_parseSyntax.bind fun _ => .pure rfl
  | edition => exact Par.par_parseEdition.bind fun _ => .pure rfl
  | importStmt => exact Par.par_parseImport.bind fun _ => .pure rfl
  | package => exact Par.par_parsePackage.bind fun _ => .pure rfl
  | option => exact (Par.par_parseOption cfg).bind fun _ => .pure rfl
  | message => exact (Par.par_parseMessage cfg).bind fun _ => .pure rfl
  | enum => exact (Par.par_parseEnum cfg).bind fun _ => .pure rfl
  | service => exact (Par.par_parseService cfg).bind fun _ => .pure rfl
  | extend => exact (Par.par_parseExtend cfg).bind fun _ => .pure rfl
  | field => exact (Par.par_parseField cfg).bind fun _ => .pure rfl
  | mapField => exact (Par.par_parseMapField cfg).bind fun _ => .pure rfl
  | groupField => exact (Par.par_parseGroupFieldWith (Par.par_messageBody cfg _)).bind fun _ => .pure rfl
  | oneof => exact (Par.par_parseOneof cfg).bind fun _ => .pure rfl
  | reserved => exact Par.par_parseReserved.bind fun _ => .pure rfl
  | extensions => exact Par.par_parseExtensions.bind fun _ => .pure rfl
  | declaration => exact Par.par_parseDeclaration.bind fun _ => .pure rfl
  | comments => exact Par.par_parseComments.bind fun _ => .pure rfl
  | isEOF => exact Par.par_eof.bind fun _ => .pure rfl
  | inline v => exact (Par.par_maybeScanInlineComment v).bind fun _ => .pure rfl

theorem answers_alike (rd : RuneReader ρ) (rd' : RuneReader ρ') (cfg : Cfg) (cs : List Request) :
    letI : Source ρ := ⟨rd⟩
    letI : Source ρ' := ⟨rd'⟩
    ∀ (k : Machine ρ) (r : ρ'), SameRunes rd rd' k.scanner.reader r →
      answers (Request.machine cfg) cs k = answers (Request.machine cfg) cs (k.swap r) := by
  letI : Source ρ := ⟨rd⟩
  letI : Source ρ' := ⟨rd'⟩
  letI : Linked ρ ρ' := linked rd rd'
  show ∀ (k : Machine ρ) (r : ρ'), SameRunes rd rd' k.scanner.reader r →
      answers (Request.machine cfg) cs k = answers (Request.machine cfg) cs (k.swap r)
  induction cs with
  | nil => intro k r _; rfl
  | cons c cs ih =>
    intro k r h
    have := ((par_request cfg c k).2 r h).resolve_left (not_gone rd rd' _)
    unfold answers
    revert this
    cases c.machine cfg k with
    | ok a k1 =>
      cases c.machine cfg (k.swap r) with
      | ok b k2 => rintro ⟨rfl, s, rfl, hs⟩; exact congrArg _ (ih _ _ hs)
      | err e k2 => exact False.elim
      | halt h => exact False.elim
    | err e k1 =>
      cases c.machine cfg (k.swap r) with
      | ok b k2 => exact False.elim
      | err e k2 => rintro ⟨rfl, s, rfl, hs⟩; exact congrArg _ (ih _ _ hs)
      | halt h => exact False.elim
    | halt h =>
      cases c.machine cfg (k.swap r) with
      | ok b k2 => exact False.elim
      | err e k2 => exact False.elim
      | halt h' =>
        intro e
        obtain rfl : h' = h := e
        cases h' <;> rfl

/-- What calls of the exported methods return, on a parser made for a reader: parser.go:29-40, lexer.go:54-65. -/
def answersReader (rd : RuneReader ρ) (cfg : Cfg) (cs : List Request) (r : ρ) (left : Nat) (filename : Str) :
    List (Outcome Ret) :=
  letI : Source ρ := ⟨rd⟩
  answers (Request.machine cfg) cs (Machine.new r left filename)

/-- C82, for all sequences of calls of the exported methods of the parser, failed ones included. -/
theorem calls_alike (rd : RuneReader ρ) (rd' : RuneReader ρ') {r : ρ} {r' : ρ'} (h : SameRunes rd rd' r r')
    (cfg : Cfg) (cs : List Request) (left : Nat) (filename : Str) :
    answersReader rd cfg cs r left filename = answersReader rd' cfg cs r' left filename :=
  answers_alike rd rd' cfg cs (Machine.new r left filename) r' h

/-! ## The same calls on the ideal cursor -/

theorem ref_request [Source ρ] (cfg : Cfg) {c : Request} (hc : c ≠ .service) :
    Ref (ρ := ρ) (fun a => a) (c.run cfg) (c.machine cfg) := by
  have hb : Ref (ρ := ρ) Parser.bodyP (Parser.messageBody cfg cfg.fuel) (Machine.Parse.messageBody cfg cfg.fuel) := by
    rw [← Parser.messageBodyK_false]; exact Parser.ref_messageBodyK false cfg _
  cases c with
  | service => exact absurd rfl hc
  | syntax_ => exact Parser.ref_parseSyntax.bind fun _ => .pure rfl
  | edition => exact Parser.ref_parseEdition.bind fun _ => .pure rfl
  | importStmt => exact Parser.ref_parseImport.bind fun _ => .pure rfl
  | package => exact Parser.ref_parsePackage.bind fun _ => .pure rfl
  | option => exact (Parser.ref_parseOption cfg).bind fun _ => .pure rfl
  | message => exact (Parser.ref_parseMessageWith hb).bind fun _ => .pure rfl
  | enum => exact (Parser.ref_parseEnum cfg).bind fun _ => .pure rfl
  | extend => exact (Parser.ref_parseExtend cfg).bind fun _ => .pure rfl
  | field => exact (Parser.ref_parseField cfg).bind fun _ => .pure rfl
  | mapField => exact (Parser.ref_parseMapField cfg).bind fun _ => .pure rfl
  | groupField => exact (Parser.ref_parseGroupFieldWith hb).bind fun _ => .pure rfl
  | oneof => exact (Parser.ref_parseOneof cfg).bind fun _ => .pure rfl
  | reserved => exact Parser.ref_parseReserved.bind fun _ => .pure rfl
  | extensions => exact Parser.ref_parseExtensions.bind fun _ => .pure rfl
  | declaration => exact Parser.ref_parseDeclaration.bind fun _ => .pure rfl
  | comments => exact Parser.ref_parseComments.bind fun _ => .pure rfl
  | isEOF => exact Parser.ref_eof.bind fun _ => .pure rfl
  | inline v => exact (Parser.ref_maybeScanInlineComment v).bind fun _ => .pure rfl

theorem answers_ref [Source ρ] (cfg : Cfg) (cs : List Request) : ∀ {l : Lexer} {k : Machine ρ}, RLex l k →
    .service ∉ cs → .more ∉ answers (Request.run cfg) cs l →
      answers (Request.machine cfg) cs k = answers (Request.run cfg) cs l := by
  induction cs with
  | nil => intro l k _ _ _; rfl
  | cons c cs ih =>
    intro l k h hs hm
    have := ref_request cfg (c := c) (fun e => hs (by simp [e])) l k h
    have hs' : .service ∉ cs := fun e => hs (by simp [e])
    unfold answers at hm ⊢
    revert this hm
    cases c.run cfg l with
    | ok a l1 =>
      cases c.machine cfg k with
      | ok b k1 =>
        rintro ⟨rfl, h1⟩ hm
        exact congrArg _ (ih h1 hs' fun e => hm (List.mem_cons_of_mem _ e))
      | err e k1 => exact False.elim
      | halt h => exact False.elim
    | err e l1 =>
      cases c.machine cfg k with
      | ok b k1 => exact False.elim
      | err e' k1 =>
        rintro ⟨rfl, h1⟩ hm
        exact congrArg _ (ih h1 hs' fun e => hm (List.mem_cons_of_mem _ e))
      | halt h => exact False.elim
    | halt h =>
      cases h with
      | fuel => intro _ hm; exact absurd (List.mem_cons_self ..) hm
      | panic =>
        cases c.machine cfg k with
        | ok b k1 => exact False.elim
        | err e k1 => exact False.elim
        | halt h =>
          cases h with
          | fuel => exact False.elim
          | panic => intro _ _; rfl

/-- C80, for calls of the exported methods: on a reader they return what they return on the text, whatever the text is
and also behind failed calls.  Missing: `ParseService`. -/
theorem reader_calls_partial (rd : RuneReader ρ) (r : ρ) {src : Str} (hg : Gives rd r src) (cfg : Cfg)
    {cs : List Request} (hs : .service ∉ cs) (filename : Str)
    (hm : .more ∉ answers (Request.run cfg) cs (Lexer.new src filename)) :
    answersReader rd cfg cs r src.length filename = answers (Request.run cfg) cs (Lexer.new src filename) :=
  letI : Source ρ := ⟨rd⟩
  answers_ref cfg cs (machine_start rd r hg filename) hs hm

/-! ## Cases -/

/-- A source that fails behind each of its three segments is parsed like the runes, with NUL for the errors. -/
example (fuel left : Nat) (options : List ParseOpt) :
    parseReader (bufferedReader faulty 4096) fuel { src := [encode c!"message M", encode c!" { }", []] } left options =
      parseReader textReader fuel (c!"message M" ++ eof :: (c!" { }" ++ [eof])) left options := by
  have e : runes [encode c!"message M", encode c!" { }", []] = c!"message M" ++ eof :: (c!" { }" ++ [eof]) := by
    simp [runes, decode_encode, Utf8.decode]
  rw [← e]
  exact (source_text (faulty_delivers _) (by omega) fuel left options).1

/-- Two readers that never come to an end. -/
example (fuel left : Nat) (options : List ParseOpt) :
    parseReader { readRune := fun _ : Unit => (some ' ', ()) } fuel () left options =
      parseReader { readRune := fun n : Nat => (some ' ', n + 1) } fuel 0 left options :=
  (readers_alike _ _ ⟨fun _ _ => True, trivial, fun _ _ _ => ⟨rfl, trivial⟩⟩ fuel left options).1

/-- Calls behind a failed one: the second call finds the package statement, and the third one the end. -/
example : (answersReader textReader { permissive := true, bodyIncludingComments := false, fuel := 3 }
      [.package, .package, .isEOF] c!"; package a;" 12 []).map (fun
        | .ok (.node (.package m)) => m.name
        | .ok (.flag b) => if b then c!"end" else c!"more"
        | .ok _ => c!"other"
        | .error _ => c!"error"
        | _ => c!"stop") = [c!"error", c!"a", c!"end"] := by decide +kernel

end Verif.Props
