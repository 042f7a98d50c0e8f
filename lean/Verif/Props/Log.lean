import Verif.Props.WellFormed
import Verif.Props.Errors

/-!
# The log of the process (C68), and what the lexer shows of the text (C69)

The lexer writes every error of the scanner to the log of the process, also where the parser only looks
ahead, recovers, or goes on without the token.  What is written is no part of the result of `Parse`.
-/

set_option backward.isDefEq.respectTransparency false
set_option backward.dsimp.instances true

namespace Verif.Props
open Scanner Spec Lexer

/-- C68: reading a file of the grammar writes nothing to the log, in every layout: no look-ahead of the
parser stops in the middle of a literal or of a comment.  What is missing: `Parse` accepts more than the
grammar, and there it may log (`log_violation`); a comment on the line of a semicolon of its own is
excluded because the code panics (`document_panics`). -/
theorem document_quiet_partial {input : Str} (hn : NulFree input) {options : List ParseOpt} {q : Proto}
    {ts : List Tok} (hq : ProtoToks (grammarOf options) q ts) (hs : .nil ∉ q.protoBody)
    (hl : Laid (words ts) input) (hc : ¬ CommentBehindSemi (grammarOf options) ts input) {fuel : Nat}
    (hf : input.length < fuel) :
    ∃ p, parse fuel input options = .ok p ∧ bareProto p = fileTree q ∧ logged fuel input options = [] := by
  have hlen := laid_length hl
  simp only [words, List.length_map] at hlen
  obtain ⟨p, l', h, h1, h2⟩ := Sat.run (Parser.parseProto_go (calm := false) (H := NoHalt) (cfg := cfgOf fuel options)
    (l := Lexer.new input (fileOf options)) (G := grammarOf options) rfl rfl rfl hq hs
    (fun us c _ _ h1 h2 h3 => absurd ⟨us, c, h1, h2, h3⟩ hc) (by show ts.length < fuel; omega)
    (ahead_log (l := Lexer.new input (fileOf options)) (good_new hn) hl))
  rw [Parser.parseProtoK_false] at h
  have hr : runProto fuel (configOf options) input = .ok p l' := h
  refine ⟨p, by rw [parse, hr]; rfl, h1, ?_⟩
  rw [logged, hr]
  exact h2.log [] rfl

/-- C68: without semicolons of their own at the top level, in every layout. -/
theorem plain_quiet {input : Str} (hn : NulFree input) {options : List ParseOpt} {q : Proto}
    {ts : List Tok} (hq : ProtoToks (grammarOf options) q ts) (hs : NoLoneSemi q)
    (hl : Laid (words ts) input) {fuel : Nat} (hf : input.length < fuel) :
    ∃ p, parse fuel input options = .ok p ∧ bareProto p = bareProto q ∧ logged fuel input options = [] := by
  have hlen := laid_length hl
  simp only [words, List.length_map] at hlen
  have hne : ∀ e, Visitee.emptyStatement e ∉ q.protoBody := fun e he => (hs _ he).2 e rfl
  obtain ⟨p, l', h, h1, h2⟩ := Sat.run (Parser.parseProto_go (calm := false) (H := NoHalt) (cfg := cfgOf fuel options)
    (l := Lexer.new input (fileOf options)) (G := grammarOf options) rfl rfl rfl hq (fun h => (hs _ h).1 rfl)
    (fun us c e h0 _ _ _ => absurd h0 (hne e)) (by show ts.length < fuel; omega)
    (ahead_log (l := Lexer.new input (fileOf options)) (good_new hn) hl))
  rw [Parser.parseProtoK_false] at h
  have hr : runProto fuel (configOf options) input = .ok p l' := h
  refine ⟨p, by rw [parse, hr]; rfl, ?_, ?_⟩
  · rw [h1, fileTree, Parser.withNils_id (Parser.bareAll_no_empty hne)]
    rfl
  rw [logged, hr]
  exact h2.log [] rfl

/-- The former applies to a file with a group, which the parser has to look for, and with empty statements. -/
example : ∃ p, parse 80 (spaced groupWords) [] = .ok p ∧ bareProto p = fileTree groupFile ∧
    logged 80 (spaced groupWords) [] = [] := by
  have key : ∀ w ∈ groupWords, (w.headD '/').toNat ∉ whiteSpace ∧ w.headD '/' ≠ '/' ∧ w.headD '/' ≠ '0' := by
    decide +kernel
  have hst : ∀ w ∈ groupWords, Standing w := fun w hw => standing_of (key w hw)
  have hl : Laid (words (groupWords.map tokOf)) (spaced groupWords) := by
    rw [words_tokOf]
    exact laid_spaced hst
  refine document_quiet_partial (options := []) ?_ group_file (by simp [groupFile]) hl ?_ ?_
  · unfold NulFree
    decide +kernel
  · rintro ⟨us, c, _, h2, h3⟩
    rw [words_tokOf] at h2
    exact spaced_untrailed hst h2 h3
  · decide +kernel

/-- The latter applies to it as well. -/
example : ∃ p, parse 80 (spaced groupWords) [] = .ok p ∧ bareProto p = bareProto groupFile ∧
    logged 80 (spaced groupWords) [] = [] := by
  have key : ∀ w ∈ groupWords, (w.headD '/').toNat ∉ whiteSpace ∧ w.headD '/' ≠ '/' ∧ w.headD '/' ≠ '0' := by
    decide +kernel
  have hl : Laid (words (groupWords.map tokOf)) (spaced groupWords) := by
    rw [words_tokOf]
    exact laid_spaced (fun w hw => standing_of (key w hw))
  refine plain_quiet (options := []) ?_ group_file ?_ hl ?_
  · unfold NulFree
    decide +kernel
  · intro v hv
    simp only [groupFile, List.mem_singleton] at hv
    subst hv
    exact ⟨by simp, by simp⟩
  · decide +kernel

/-- C68 is violated beyond the grammar: an import with a stray slash in place of its modifier is accepted, and
the error of the scanner is logged. -/
theorem log_violation : ∃ p, Parses c!"import / \"a\";" [] (.ok p) ∧
    ∃ e, logged 60 c!"import / \"a\";" [] = [e] := by
  have h : accepts (fun p => p.protoBody.length == 1) (parse 60 c!"import / \"a\";") = true := by decide +kernel
  have h' : (logged 60 c!"import / \"a\";").length = 1 := by decide +kernel
  obtain ⟨p, h1, _⟩ := accepts_parses h
  exact ⟨p, h1, List.length_eq_one_iff.1 h'⟩

/-! ## C69: the lexer -/

/-- The exported functions that read a token, each with what it takes for a token of its own. -/
def readers : List (P Unit × Mode) :=
  [(next, {}),
   (nextKeyword, { keyword := true }),
   (nextStrLit, { str := true }),
   (nextKeywordOrStrLit, { keyword := true, str := true }),
   (nextNumberLit, { number := true }),
   (nextLit, { number := true, str := true, bool := true }),
   (nextComment, { comment := true })]

/-- The states a lexer of the file `f` with text `src` can be in after any sequence of reads, some of which are
undone. -/
inductive Driven (f src : Str) : Lexer → Prop
  | new : Driven f src (Lexer.new src f)
  | read {l l' : Lexer} {nx : P Unit} {m : Mode} : Driven f src l → (nx, m) ∈ readers → nx l = .ok () l' →
      Driven f src l'
  | undo {l l' l'' : Lexer} {nx : P Unit} {m : Mode} : Driven f src l → (nx, m) ∈ readers → nx l = .ok () l' →
      unNext l' = .ok () l'' → Driven f src l''

theorem readers_run {nx : P Unit} {m : Mode} (h : (nx, m) ∈ readers) {l : Lexer} (hm : l.scanner.mode = {})
    (hn : NulFree l.scanner.inp) : nx l = .ok () (nextSt m l) := by
  simp only [readers, List.mem_cons, Prod.mk.injEq, List.not_mem_nil, or_false] at h
  rcases h with ⟨rfl, rfl⟩ | ⟨rfl, rfl⟩ | ⟨rfl, rfl⟩ | ⟨rfl, rfl⟩ | ⟨rfl, rfl⟩ | ⟨rfl, rfl⟩ | ⟨rfl, rfl⟩
  · have := nextCur_eq hn
    rw [hm] at this
    exact this
  all_goals exact nextWith_eq _ hn

theorem driven_hist {f src : Str} (hn : NulFree src) {l : Lexer} (h : Driven f src l) :
    Hist f src l.scanner ∧ l.scanner.mode = {} := by
  induction h with
  | new => exact ⟨.start, rfl⟩
  | @read l l' nx m h hnx hr ih =>
    have hi := hist_nulFree hn ih.1
    rw [readers_run hnx ih.2 hi] at hr
    cases hr
    have hs := scan_eq (s := { l.scanner with mode := m }) hi
    refine ⟨?_, ih.2⟩
    have := Hist.mode _ l.scanner.mode (.scan _ _ _ (.mode _ m ih.1) hs)
    exact this
  | @undo l l' l'' nx m h hnx hr hu ih =>
    have hi := hist_nulFree hn ih.1
    rw [readers_run hnx ih.2 hi] at hr
    cases hr
    rw [unNext_nextSt] at hu
    cases hu
    have hs := scan_eq (s := { l.scanner with mode := m }) hi
    refine ⟨?_, ih.2⟩
    have := Hist.mode _ l.scanner.mode (.undo _ _ _ (.mode _ m ih.1) hs)
    rw [unScan_after' m { l.scanner with mode := m }] at this
    exact this

/-- C69: after any sequence of reads, some of which are undone, a read returns.  What it skips is white space and,
unless comments are asked for, comments.  Either it shows the token that follows, with its text, its raw text and its
position, and reports nothing; or no token can be read there, and it shows an illegal token, and its error is the only
one that is added to the log and the one that `LatestErr` then returns. -/
theorem lexer_read {f src : Str} (hn : NulFree src) {l : Lexer} (h : Driven f src l) {nx : P Unit} {m : Mode}
    (hnx : (nx, m) ∈ readers) :
    ∃ l' pre g cs raw, nx l = .ok () l' ∧ src = pre ++ l.scanner.inp ∧
      l.scanner.inp = g ++ (raw ++ l'.scanner.inp) ∧ Gap (!m.comment) (raw ++ l'.scanner.inp) g cs ∧
      l'.rawText = g ++ raw ∧ l'.pos.p = posAt f (pre ++ g) ∧
      ((Lexeme m l'.scanner.inp raw l'.token l'.text ∧ l'.log = l.log ∧ l'.latestErr = l.latestErr) ∨
        (LexError m (raw ++ l'.scanner.inp) ∧ l'.token = .illegal ∧ l'.text = [] ∧
          ∃ expected c, l'.log = l.log ++ [.single (posAt f (pre ++ (g ++ raw))) expected (.rune c)] ∧
            l'.latestErr = some (.single (posAt f (pre ++ (g ++ raw))) expected (.rune c)) ∧
            ScanFault (g ++ raw) l'.scanner.inp expected c)) := by
  obtain ⟨hh, hm⟩ := driven_hist hn h
  have hi := hist_nulFree hn hh
  have hs := scan_eq (s := { l.scanner with mode := m }) hi
  obtain ⟨pre, g, cs, raw, h1, h2, h3, _, h5, h6, h7, _⟩ := scan_skips_gap hn (.mode _ m hh) hs
  obtain ⟨pre', k1, k2⟩ := hist_inv hn hh
  have hsrc : src = pre ++ l.scanner.inp := h1.trans (by rw [← h2])
  have hraw : (lex m l.scanner.inp).raw = g ++ raw := by
    have hd := drop_raw m l.scanner.inp
    have e : l.scanner.inp = (g ++ raw) ++ ((lex m l.scanner.inp).after { l.scanner with mode := m }).inp := by
      rw [List.append_assoc]; exact h2
    rw [after_inp] at e
    exact List.append_cancel_right (hd.symm.trans e)
  have hpp : pre' = pre := List.append_cancel_right (k1.symm.trans hsrc)
  subst hpp
  refine ⟨_, pre', g, cs, raw, readers_run hnx hm hi, hsrc, h2, h3, hraw, h5, ?_⟩
  cases he : ((lex m l.scanner.inp).scanned l.scanner.pos).error with
  | none =>
    have hlog : (nextSt m l).log = l.log := by simp [nextSt, he]
    exact .inl ⟨h6 he, hlog, by rw [latestErr, latestErr, hlog]⟩
  | some e =>
    obtain ⟨j1, j2, j3⟩ := h7 (by rw [he]; simp)
    obtain ⟨x, c, q1, q2⟩ := scan_expected (s := { l.scanner with mode := m }) hi hs he
    have hlog : (nextSt m l).log = l.log ++ [e] := by simp [nextSt, he]
    rw [after_pos] at q1
    have hp : (l.scanner.pos.advanceAll (lex m l.scanner.inp).raw).p = posAt f (pre' ++ (g ++ raw)) := by
      rw [k2, ← SPos.advanceAll_append, SPos.advanceAll_new, hraw]
    have q1' : e = .single (posAt f (pre' ++ (g ++ raw))) x (.rune c) := q1.trans (by rw [← hp])
    rw [after_raw, hraw] at q2
    subst q1'
    exact .inr ⟨j3, j1, j2, x, c, hlog, by rw [latestErr, hlog]; simp, q2⟩

/-- C69: undoing a read leaves the log as it is, and the text and the position are those before the read. -/
theorem lexer_undo {f src : Str} (hn : NulFree src) {l l' : Lexer} (h : Driven f src l) {nx : P Unit} {m : Mode}
    (hnx : (nx, m) ∈ readers) (hr : nx l = .ok () l') :
    ∃ l'', unNext l' = .ok () l'' ∧ l''.log = l'.log ∧ l''.latestErr = l'.latestErr ∧
      l''.scanner.inp = l.scanner.inp ∧ l''.pos = l.scanner.pos ∧ l''.token = .illegal := by
  obtain ⟨hh, hm⟩ := driven_hist hn h
  rw [readers_run hnx hm (hist_nulFree hn hh)] at hr
  cases hr
  exact ⟨_, unNext_nextSt m l, rfl, rfl, rfl, rfl, rfl⟩

/-- C69 on a lexer that has reported two errors: the second is the one that is returned. -/
example : ∃ l, Driven c!"f" c!"1.5e / 'a" l ∧ l.log.length = 2 ∧
    l.latestErr = some (.single (posAt c!"f" c!"1.5e / ") "/ or *" (.rune ' ')) ∧ l.scanner.inp = c!"'a" := by
  have h0 : NulFree c!"1.5e / 'a" := by unfold NulFree; decide +kernel
  have h1 : Driven c!"f" c!"1.5e / 'a" (nextSt { number := true } (Lexer.new c!"1.5e / 'a" c!"f")) :=
    .read .new (nx := nextNumberLit) (m := { number := true }) (by simp [readers]) (readers_run (by simp [readers]) rfl h0)
  have h2 : Driven c!"f" c!"1.5e / 'a" (nextSt {} (nextSt { number := true } (Lexer.new c!"1.5e / 'a" c!"f"))) :=
    .read h1 (nx := next) (m := {}) (by simp [readers]) (readers_run (by simp [readers]) rfl (by unfold NulFree; decide +kernel))
  exact ⟨_, h2, by decide +kernel, by decide +kernel, by decide +kernel⟩

end Verif.Props
