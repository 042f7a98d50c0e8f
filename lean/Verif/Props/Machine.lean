import Verif.Proofs.MachineEnd
import Verif.Props.Parse
import Verif.Props.Reader
import Verif.Props.Complete

/-!
# Parse on readers (C80, C81)

`parse` (`Model/Parser.lean`) runs on an ideal cursor in a text; `parseReader` (`Model/Machine.lean`) runs the same
code on what it has in /repo: a buffered reader that fetches bytes in pieces, a push-back buffer, and one map of
columns that comments write to as well.
-/

set_option backward.isDefEq.respectTransparency false
set_option backward.dsimp.instances true

namespace Verif.Props
open Spec Lexer

variable {ρ : Type}

/-- No failed group is recovered in this run: the parser that gives up there (`Proofs/Calm.lean`) does not. -/
def RunsCalmly (fuel : Nat) (options : List ParseOpt) (input : Str) : Prop :=
  Parser.parseProtoK true (cfgOf fuel options) (Lexer.new input (fileOf options)) ≠ .halt .fuel

/-- The machine starts where the text does. -/
theorem machine_start (rd : RuneReader ρ) (r : ρ) {src : Str} (hg : Gives rd r src) (filename : Str) :
    letI : Source ρ := ⟨rd⟩
    RLex (Lexer.new src filename) (Machine.new r src.length filename) :=
  letI : Source ρ := ⟨rd⟩
  ⟨rfl, rfl, rfl, rfl, rfl, ⟨src, rfl, hg, rfl⟩, rfl, rfl,
    fun i => by simp [Machine.new, Concrete.new, Lexer.new, Scanner.new, SPos.new], rfl, rfl⟩

theorem machine_run (rd : RuneReader ρ) (r : ρ) {src : Str} (hn : NulFree src) (hg : Gives rd r src) (calm : Bool)
    (fuel : Nat) (options : List ParseOpt) (hc : NoGroup src ∨ calm = true) :
    letI : Source ρ := ⟨rd⟩
    Verif.SameRes (fun a => a) (Parser.parseProtoK calm (cfgOf fuel options) (Lexer.new src (fileOf options)))
      (Machine.runProto fuel (configOf options) r src.length) :=
  letI : Source ρ := ⟨rd⟩
  Parser.same_parseProto calm (cfgOf fuel options) (good_new hn) ⟨[], Inv.new _ _⟩ hc (machine_start rd r hg _)

section
variable [Source ρ] {l : Res Lexer Err Proto} {k : Res (Machine ρ) Err Proto}

theorem same_outcome (h : Verif.SameRes (fun a => a) l k) (hm : l ≠ .halt .fuel) :
    (Outcome.ofRes k : Outcome Proto) = .ofRes l := by
  unfold Verif.SameRes at h
  split at h
  · exact absurd rfl hm
  · rw [h.1]; rfl
  · rw [h.1]; rfl
  · rfl
  · exact h.elim

/-- What the lexer has logged when the run is over. -/
def logOf {σ : Type} (f : σ → List Err) : Res σ Err Proto → List Err
  | .ok _ k => f k
  | .err _ k => f k
  | .halt _ => []

theorem same_log (h : Verif.SameRes (fun a => a) l k) (hm : l ≠ .halt .fuel) :
    logOf Machine.log k = logOf Lexer.log l := by
  unfold Verif.SameRes at h
  split at h
  · exact absurd rfl hm
  · exact h.2.log
  · exact h.2
  · rfl
  · exact h.elim

end

theorem logged_eq (fuel : Nat) (input : Str) (options : List ParseOpt) :
    logged fuel input options = logOf Lexer.log (runProto fuel (configOf options) input) := by
  unfold logged logOf; split <;> rename_i e <;> rw [e]

theorem loggedReader_eq (rd : RuneReader ρ) (fuel : Nat) (r : ρ) (left : Nat) (options : List ParseOpt) :
    letI : Source ρ := ⟨rd⟩
    loggedReader rd fuel r left options = logOf Machine.log (Machine.runProto fuel (configOf options) r left) := by
  unfold loggedReader logOf; split <;> rename_i e <;> rw [e]

/-- C80: a call of `Parse` that ends, on a reader that gives the runes `src`, ends as it does on the text, and writes
the same to the standard error.  Missing: NUL, and runs in which a group failed and the parser went on. -/
theorem reader_parse_partial (rd : RuneReader ρ) (r : ρ) {src : Str} (hn : NulFree src) (hg : Gives rd r src)
    {fuel : Nat} {options : List ParseOpt} (hm : parse fuel src options ≠ .more)
    (hc : NoGroup src ∨ RunsCalmly fuel options src) :
    parseReader rd fuel r src.length options = parse fuel src options ∧
      loggedReader rd fuel r src.length options = logged fuel src options := by
  letI : Source ρ := ⟨rd⟩
  rw [loggedReader_eq, logged_eq]
  have hm' : runProto fuel (configOf options) src ≠ .halt .fuel := fun e => hm (congrArg Outcome.ofRes e)
  rcases hc with hc | hc
  · have h := machine_run rd r hn hg false fuel options (.inl hc)
    rw [Parser.parseProtoK_false] at h
    exact ⟨same_outcome h hm', same_log h hm'⟩
  · have h := machine_run rd r hn hg true fuel options (.inr rfl)
    rw [(Parser.parseProtoK_true (cfgOf fuel options) (Lexer.new src (fileOf options))).resolve_left hc] at h
    exact ⟨same_outcome h hm', same_log h hm'⟩

/-- C80, for every accepted file without services, whatever its text is: NUL and failed groups included. -/
theorem reader_parse_plain (rd : RuneReader ρ) (r : ρ) {src : Str} (hg : Gives rd r src) {fuel : Nat}
    {options : List ParseOpt} {p : Proto} (h : parse fuel src options = .ok p)
    (hp : ∀ s, .service s ∉ p.protoBody) :
    parseReader rd fuel r src.length options = .ok p ∧
      loggedReader rd fuel r src.length options = logged fuel src options := by
  letI : Source ρ := ⟨rd⟩
  obtain ⟨l, e⟩ := parse_ok h
  have hv : ∀ v ∈ p.protoBody, v.isService = false := by
    intro v hv
    cases v <;> first | rfl | exact absurd hv (hp _)
  obtain ⟨k, d, hk⟩ := Parser.plain_parseProto (cfgOf fuel options) (machine_start rd r hg (fileOf options)) e hv
  have d' : Machine.runProto fuel (configOf options) r src.length = .ok p k := d
  unfold parseReader
  rw [loggedReader_eq, logged_eq, d', e]
  exact ⟨rfl, hk.log⟩

/-- C80, for texts without the letters "group": the bound is the length of the text. -/
theorem reader_parse_nogroup_partial (rd : RuneReader ρ) (r : ρ) {src : Str} (hn : NulFree src) (hg : Gives rd r src)
    (hc : NoGroup src) (options : List ParseOpt) {fuel : Nat} (hf : src.length < fuel) :
    parseReader rd fuel r src.length options = parse fuel src options ∧
      loggedReader rd fuel r src.length options = logged fuel src options :=
  reader_parse_partial rd r hn hg (parse_terminates_partial hn hc options hf) (.inl hc)

/-- C80, for well-formed files, with or without groups. -/
theorem reader_parse_wellformed (rd : RuneReader ρ) (r : ρ) {src : Str} (hn : NulFree src) (hg : Gives rd r src)
    {options : List ParseOpt} (hw : WellFormed options src) {fuel : Nat} (hf : src.length < fuel) {p : Proto}
    (h : parse fuel src options = .ok p) : parseReader rd fuel r src.length options = .ok p := by
  obtain ⟨l, e⟩ := calm_run hn hw hf h
  rw [(reader_parse_partial rd r hn hg (by rw [h]; exact nofun) (.inr (by unfold RunsCalmly; rw [e]; exact nofun))).1, h]

/-- C80, for a source of bytes behind a buffer, however the source cuts them into pieces. -/
theorem bytes_parse_partial {σ : Type} {io : IOReader σ} {s : σ} {bytes : List Nat} (h : Delivers io s [bytes])
    {size : Nat} (h4 : 4 ≤ size) (hn : NulFree (Utf8.decode bytes)) {fuel : Nat} {options : List ParseOpt}
    (hm : parse fuel (Utf8.decode bytes) options ≠ .more)
    (hc : NoGroup (Utf8.decode bytes) ∨ RunsCalmly fuel options (Utf8.decode bytes)) :
    parseReader (bufferedReader io size) fuel { src := s } (Utf8.decode bytes).length options =
        parse fuel (Utf8.decode bytes) options ∧
      loggedReader (bufferedReader io size) fuel { src := s } (Utf8.decode bytes).length options =
        logged fuel (Utf8.decode bytes) options :=
  reader_parse_partial _ _ hn (gives_bufio h4 h) hm hc

/-- C63 for `Parse`: a text in UTF-8 that arrives in any pieces, through a buffer of any size from 4 bytes up. -/
theorem text_parse_partial {σ : Type} {io : IOReader σ} {s : σ} {src : Str} (h : Delivers io s [encode src])
    {size : Nat} (h4 : 4 ≤ size) (hn : NulFree src) {fuel : Nat} {options : List ParseOpt}
    (hm : parse fuel src options ≠ .more) (hc : NoGroup src ∨ RunsCalmly fuel options src) :
    parseReader (bufferedReader io size) fuel { src := s } src.length options = parse fuel src options ∧
      loggedReader (bufferedReader io size) fuel { src := s } src.length options = logged fuel src options := by
  have := bytes_parse_partial h h4 (fuel := fuel) (options := options)
  rw [decode_encode] at this
  exact this hn hm hc

/-- C64 is violated for `Parse` itself: a source that fails for ever behind its bytes, with whatever error, is parsed
like one that ends there. -/
theorem parse_read_error_violation {σ τ : Type} {io : IOReader σ} {io' : IOReader τ} {s : σ} {s' : τ}
    {bytes : List Nat} (h : Delivers io s [bytes]) (h' : Delivers io' s' [bytes]) {size size' : Nat} (h4 : 4 ≤ size)
    (h4' : 4 ≤ size') (hn : NulFree (Utf8.decode bytes)) (hc : NoGroup (Utf8.decode bytes))
    (options : List ParseOpt) {fuel : Nat} (hf : (Utf8.decode bytes).length < fuel) :
    parseReader (bufferedReader io size) fuel { src := s } (Utf8.decode bytes).length options =
      parseReader (bufferedReader io' size') fuel { src := s' } (Utf8.decode bytes).length options := by
  rw [(reader_parse_nogroup_partial _ _ hn (gives_bufio h4 h) hc options hf).1,
    (reader_parse_nogroup_partial _ _ hn (gives_bufio h4' h') hc options hf).1]

/-! ## Cases -/

/-- A file with comments around and inside an RPC, one of them in words of more than one byte. -/
def rpcFile : Str := c!"syntax = \"proto3\";\n// π\nservice S {\n  rpc F(A) returns (/* € */ B) {}; // x\n}\n"

/-- What is looked at in the cases below: the number of statements, and the comments of the first RPC, with where they
begin and end. -/
def rpcView : Outcome Proto → Nat × List (Str × Int × Int)
  | .ok p => (p.protoBody.length, p.protoBody.flatMap fun
    | .service s => s.serviceBody.flatMap fun
      | .rpc r => (r.embeddedComments ++ r.inlineComment.toList).map fun c =>
          (c.raw, c.info.pos.offset, c.info.lastPos.offset)
      | _ => []
    | _ => [])
  | _ => (0, [])


theorem rpcFile_nul : NulFree rpcFile := by unfold NulFree; decide +kernel

theorem rpcFile_group : NoGroup rpcFile := by unfold NoGroup; decide +kernel

/-- However the file arrives, it is parsed like the text. -/
theorem rpcFile_parse (g : Nat → List Nat → Nat) (hg : ∀ n s, 0 < n → s ≠ [] → 0 < g n s) (last : IOErr)
    (options : List ParseOpt) :
    parseReader (bufferedReader (pieces g last) 16) 100 { src := encode rpcFile } rpcFile.length options =
      parse 100 rpcFile options :=
  (text_parse_partial (pieces_delivers g hg _ _) (by omega) rpcFile_nul
    (parse_terminates_partial rpcFile_nul rpcFile_group options (by decide +kernel)) (.inl rpcFile_group)).1

/-- Byte by byte, with an error at the end: the comments are found where they are. -/
example : rpcView (parseReader (bufferedReader (pieces (fun _ _ => 1) .other) 16) 100 { src := encode rpcFile }
    rpcFile.length) = (1, [(c!"/* € */", 57, 65), (c!"// x", 74, 77)]) := by
  rw [rpcFile_parse _ (fun _ _ _ _ => Nat.one_pos)]
  decide +kernel

/-- A file with a group, which is well formed. -/
def calmGroup : Str := c!"message M { optional group G = 1 { } }"

/-- Its run is one in which no group fails. -/
example : RunsCalmly 100 [] calmGroup := by
  have h : (match Parser.parseProtoK true (cfgOf 100 []) (Lexer.new calmGroup (fileOf [])) with
    | .ok _ _ => true | _ => false) = true := by decide +kernel
  unfold RunsCalmly
  intro e
  rw [e] at h
  exact nomatch h

/-- A file that is accepted after a failed group, with a comment read as a field (C28), and one with NUL in it: both are
read alike from every reader. -/
example {rd : RuneReader ρ} {r : ρ} {src : Str} (hg : Gives rd r src)
    (hs : src = c!"message M { optional group A = 1 { enum E { X /*\n; int32 hidden = 1; } // */ // x" ∨
      src = c!"message M { }" ++ List.replicate 20 (Char.ofNat 0) ++ c!" not a proto file") :
    ∃ p, parseReader rd 100 r src.length = .ok p := by
  have h : (match parse 100 src with
    | .ok p => p.protoBody.all fun v => !v.isService
    | _ => false) = true := by rcases hs with rfl | rfl <;> decide +kernel
  split at h
  · rename_i p e
    refine ⟨p, (reader_parse_plain rd r hg e fun s hs => ?_).1⟩
    have := List.all_eq_true.1 h _ hs
    simp [Visitee.isService] at this
  · cases h

/-- In a file with an error the machine stops where the ideal parser stops, and logs as much. -/
example (g : Nat → List Nat → Nat) (hg : ∀ n s, 0 < n → s ≠ [] → 0 < g n s) :
    parseReader (bufferedReader (pieces g .eof) 4096) 100 { src := encode c!"message M { int32 a = ; }" } 25 =
      parse 100 c!"message M { int32 a = ; }" :=
  have hn : NulFree c!"message M { int32 a = ; }" := by unfold NulFree; decide +kernel
  have hc : NoGroup c!"message M { int32 a = ; }" := by unfold NoGroup; decide +kernel
  (text_parse_partial (pieces_delivers g hg _ _) (by omega) hn
    (parse_terminates_partial hn hc [] (by decide +kernel)) (.inl hc)).1

/-! ## C81: a successful call reads the reader to its end -/

/-- C81: after a call that returned a tree the reader has nothing left.  Missing as in C80: NUL, and runs in which a group
failed and the parser went on. -/
theorem reader_drained_partial (rd : RuneReader ρ) (r : ρ) {src : Str} (hn : NulFree src) (hg : Gives rd r src)
    {fuel : Nat} {options : List ParseOpt} {p : Proto} (h : parse fuel src options = .ok p)
    (hc : NoGroup src ∨ RunsCalmly fuel options src) :
    ∃ r', readerAfter rd fuel r src.length options = some r' ∧ Gives rd r' [] := by
  letI : Source ρ := ⟨rd⟩
  obtain ⟨l, e⟩ := parse_ok h
  have key : ∃ calm, (NoGroup src ∨ calm = true) ∧
      Parser.parseProtoK calm (cfgOf fuel options) (Lexer.new src (fileOf options)) = .ok p l := by
    rcases hc with hc | hc
    · exact ⟨false, .inl hc, by rw [Parser.parseProtoK_false]; exact e⟩
    · refine ⟨true, .inr rfl, ?_⟩
      rw [(Parser.parseProtoK_true (cfgOf fuel options) (Lexer.new src (fileOf options))).resolve_left hc]
      exact e
  obtain ⟨calm, hc, e⟩ := key
  obtain ⟨k, d, hd⟩ := Parser.last_parseProto calm (cfgOf fuel options) (good_new hn) ⟨[], Inv.new _ _⟩ hc
    (machine_start rd r hg (fileOf options)) e
  have d' : Machine.runProto fuel (configOf options) r src.length = .ok p k := d
  refine ⟨k.scanner.reader, ?_, hd⟩
  unfold readerAfter
  simp only [d']

theorem fillLoop_keeps {σ : Type} (io : IOReader σ) (size n : Nat) (b : Bufio σ) :
    ∃ more, (Bufio.fillLoop io size n b).data = b.data ++ more := by
  induction n generalizing b with
  | zero => exact ⟨[], by simp [Bufio.fillLoop]⟩
  | succ n ih =>
    unfold Bufio.fillLoop
    split
    · exact ⟨_, rfl⟩
    · split
      · exact ⟨_, rfl⟩
      · obtain ⟨more, h⟩ := ih { b with src := _, data := b.data ++ _ }
        exact ⟨_, by rw [h, List.append_assoc]⟩

theorem waitRune_keeps {σ : Type} (io : IOReader σ) (size n : Nat) (b : Bufio σ) :
    ∃ more, (Bufio.waitRune io size n b).data = b.data ++ more := by
  induction n generalizing b with
  | zero => exact ⟨[], by simp [Bufio.waitRune]⟩
  | succ n ih =>
    unfold Bufio.waitRune
    split
    · obtain ⟨more, h⟩ := ih (Bufio.fill io size b)
      obtain ⟨more', h'⟩ := fillLoop_keeps io size 100 b
      exact ⟨more' ++ more, by rw [h, Bufio.fill, h', List.append_assoc]⟩
    · exact ⟨[], by simp⟩

/-- A buffer that gives nothing holds no bytes, and a new one on the same source gives nothing either. -/
theorem gives_nil_source {σ : Type} {io : IOReader σ} {size : Nat} {b : Bufio σ}
    (h : Gives (bufferedReader io size) b []) : b.data = [] ∧ Gives (bufferedReader io size) { src := b.src } [] := by
  obtain ⟨h1, h2⟩ := h.nil
  have hd : b.data = [] := by
    obtain ⟨more, hm⟩ := waitRune_keeps io size 5 b
    change (Bufio.readRune io size b).1 = none at h1
    unfold Bufio.readRune at h1
    simp only at h1
    split at h1
    · rename_i e
      rw [hm] at e
      exact (List.append_eq_nil_iff.1 e).1
    · cases h1
  refine ⟨hd, ?_⟩
  obtain ⟨src, data, err⟩ := b
  simp only at hd
  subst hd
  cases err with
  | none => exact h
  | some e =>
    have : (Bufio.readRune io size { src := src, data := [], err := some e }).2 = { src := src } := by
      simp [Bufio.readRune, Bufio.waitRune]
    change Gives _ (Bufio.readRune io size _).2 [] at h2
    rw [this] at h2
    exact h2

/-- The tree of the empty file, comments and positions erased. -/
def emptyTree : Proto := { syntax_ := none, edition := none, protoBody := [], metaFilename := [] }

theorem parse_nothing {fuel : Nat} (hf : 0 < fuel) (options : List ParseOpt) :
    ∃ q, parse fuel [] options = .ok q ∧ bareProto q = emptyTree := by
  refine parse_complete_partial (q := emptyTree) (ts := []) NulFree.nil
    (.mk emptyTree [] [] [] [] (.inl rfl) .none .none (.nil _)) (by simp [emptyTree]) (.nil [] [] .nil) ?_ hf
  rintro ⟨us, c, ⟨_, ts1, s, h, _⟩, _⟩
  simp at h

/-- C81, for a source of bytes: a second call on the same source finds an empty file. -/
theorem parse_twice_partial {σ : Type} {io : IOReader σ} {s : σ} {bytes : List Nat} (h : Delivers io s [bytes])
    {size : Nat} (h4 : 4 ≤ size) (hn : NulFree (Utf8.decode bytes)) {fuel : Nat} {options : List ParseOpt} {p : Proto}
    (hp : parse fuel (Utf8.decode bytes) options = .ok p)
    (hc : NoGroup (Utf8.decode bytes) ∨ RunsCalmly fuel options (Utf8.decode bytes)) :
    ∃ b, readerAfter (bufferedReader io size) fuel { src := s } (Utf8.decode bytes).length options = some b ∧
      b.data = [] ∧ ∀ fuel' options', 0 < fuel' → ∃ q,
        parseReader (bufferedReader io size) fuel' { src := b.src } 0 options' = .ok q ∧ bareProto q = emptyTree := by
  obtain ⟨b, hb, hd⟩ := reader_drained_partial _ _ hn (gives_bufio h4 h) hp hc
  obtain ⟨h1, h2⟩ := gives_nil_source hd
  refine ⟨b, hb, h1, fun fuel' options' hf => ?_⟩
  obtain ⟨q, e, hq⟩ := parse_nothing hf options'
  refine ⟨q, ?_, hq⟩
  have := (reader_parse_nogroup_partial _ _ NulFree.nil h2 (by unfold NoGroup; decide) options'
    (fuel := fuel') (by simpa using hf)).1
  rw [← e]
  exact this

theorem rpcFile_ok : ∃ p, parse 100 rpcFile [] = .ok p := by
  have h : (match parse 100 rpcFile [] with | .ok _ => true | _ => false) = true := by decide +kernel
  generalize parse 100 rpcFile [] = o at h
  cases o with
  | ok p => exact ⟨p, rfl⟩
  | error e => cases h
  | panic => cases h
  | more => cases h

/-- The file above, in any pieces and through a buffer much smaller than it. -/
example (g : Nat → List Nat → Nat) (hg : ∀ n s, 0 < n → s ≠ [] → 0 < g n s) (last : IOErr) :
    ∃ b, readerAfter (bufferedReader (pieces g last) 16) 100 { src := encode rpcFile } rpcFile.length [] = some b ∧
      b.data = [] ∧ ∃ q, parseReader (bufferedReader (pieces g last) 16) 1 { src := b.src } 0 [] = .ok q ∧
        bareProto q = emptyTree := by
  obtain ⟨p, h⟩ := rpcFile_ok
  have := parse_twice_partial (pieces_delivers g hg last (encode rpcFile)) (size := 16) (by omega)
    (fuel := 100) (options := []) (p := p)
  rw [decode_encode] at this
  obtain ⟨b, h1, h2, h3⟩ := this rpcFile_nul h (.inl rpcFile_group)
  exact ⟨b, h1, h2, h3 1 [] (by omega)⟩

/-- With NUL the claim is false: the rest of the text is left in the reader of a call that succeeds. -/
theorem nul_left_violation :
    (match parseReader textReader 5 (List.replicate 12 (Char.ofNat 0) ++ c!"message") 19 with
      | .ok _ => true
      | _ => false) = true ∧
    readerAfter textReader 5 (List.replicate 12 (Char.ofNat 0) ++ c!"message") 19 = some c!"message" := by
  decide +kernel

end Verif.Props
