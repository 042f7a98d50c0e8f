import Verif.Spec.Laid
import Verif.Proofs.ParseComment
import Verif.Props.Scanner

/-!
# Reading a text whose tokens are known

`Ahead T l ws`: the spellings `ws` lie ahead of the cursor of `l`.  The rules below say what the calls of
the lexer do in such a state.
-/

set_option backward.isDefEq.respectTransparency false
set_option backward.dsimp.instances true

namespace Verif
open Spec Scanner Lexer
open M (bind_ok run_get)

/-! ## Layouts -/

theorem solid_nil : Solid [] :=
  ⟨fun _ h => by simp at h, fun raw _ _ h hc => by
    have := Parser.comment_length hc
    have := congrArg List.length h
    simp at this
    omega⟩

/-- The first part of a gap can be skipped. -/
theorem laid_gap {ws : List Str} {g t : Str} {cs : List (Str × Str)} (hg : Gap true t g cs)
    (h : Laid ws (g ++ t)) : Laid ws t := by
  obtain ⟨g1, cs1, x, rfl, hg1, _, hx⟩ := lex_solid (m := {}) rfl t
  obtain ⟨cs2, hg2⟩ := gap_append hg hg1
  have e := lex_gap_eq (m := {}) rfl hg2 hx
  rw [← List.append_assoc] at h
  generalize hu : g ++ g1 ++ x = u at h
  cases h with
  | nil _ cs' h =>
    have e2 := lex_gap_eq (m := {}) rfl (x := []) h solid_nil
    rw [List.append_nil, ← hu, e] at e2
    have : x = [] := by simpa using e2
    subst this
    rw [List.append_nil]
    exact .nil _ _ hg1
  | cons g' cs' w ws c h ha hl =>
    have e2 := lex_gap_eq (m := {}) rfl h ha.solid
    rw [← hu, e] at e2
    subst e2
    have : x = w ++ c := by simpa using hu
    subst this
    exact .cons _ _ _ _ _ hg1 ha hl

theorem laid_length {ws : List Str} {t : Str} (h : Laid ws t) : ws.length ≤ t.length := by
  induction h with
  | nil => simp
  | cons g cs w ws c _ ha _ ih =>
    have : 0 < w.length := List.length_pos_iff.2 ha.ne
    simp; omega

/-! ## States -/

/-- A layout, the spellings and the text; and what the log of the lexer is to contain, if that matters. -/
structure Src where
  words : List Str
  text : Str
  log : Option (List Err) := none

theorem after_snoc {ws ws' : List Str} {t t' : Str} (h : After ws t ws' t') {g w c : Str} {us : List Str}
    {cs : List (Str × Str)} (e : ws' = w :: us) (e' : t' = g ++ (w ++ c)) (hg : Gap true (w ++ c) g cs) (ha : Apart w c) :
    After ws t us c := by
  induction h with
  | refl => subst e e'; exact .step g cs w us c hg ha (.refl _ _)
  | step g1 cs1 w1 ws1 c1 h1 h2 _ ih => exact .step g1 cs1 w1 ws1 c1 h1 h2 (ih e e')

/-- The spellings `ws` lie ahead, in the layout `T`. -/
structure Ahead (T : Src) (l : Lexer) (ws : List Str) : Prop where
  good : Good l
  laid : Laid ws l.scanner.inp
  from_ : ∃ g cs, Gap true l.scanner.inp g cs ∧ After T.1 T.2 ws (g ++ l.scanner.inp)
  log : ∀ x ∈ T.log, l.log = x

theorem ahead_here {l : Lexer} {ws : List Str} (hg : Good l) (hl : Laid ws l.scanner.inp) :
    Ahead ⟨ws, l.scanner.inp, none⟩ l ws := ⟨hg, hl, ⟨[], [], .nil, .refl _ _⟩, by simp⟩

theorem ahead_log {l : Lexer} {ws : List Str} (hg : Good l) (hl : Laid ws l.scanner.inp) :
    Ahead ⟨ws, l.scanner.inp, some l.log⟩ l ws := ⟨hg, hl, ⟨[], [], .nil, .refl _ _⟩, by simp⟩

/-! ## What is not logged -/

theorem nextSt_log {m : Mode} {l : Lexer} (h : (lex m l.scanner.inp).err = none) : (nextSt m l).log = l.log := by
  simp [nextSt, LexOut.scanned, h]

/-- A token that starts with no slash, and with no quote or digit that would be read as a literal. -/
theorem lex_quiet {m : Mode} {x : Str} (hw : NotNext White x) (h : x.head? ≠ some '/')
    (hs : m.str = true → ∀ c ∈ x.head?, c ∉ ['\'', '"'])
    (hn : m.number = true → ∀ c ∈ x.head?, c ∉ decimals ++ ['.']) : (lex m x).err = none := by
  cases x with
  | nil => rw [lex_token (by decide) (by decide)]; simp [tokenAt]
  | cons c x =>
    have h1 : ¬ isSpace c = true := fun h => hw c (by simp) (white_iff.2 h)
    rw [lex_token (by simpa using h1) (by simpa using h)]
    unfold tokenAt
    simp only [hd_cons, reduceCtorEq, if_false]
    split
    · rfl
    · split
      · next h2 => exact absurd (by simpa using isQuote_iff.1 h2.1) (hs h2.2 c (by simp))
      · split
        · next h2 =>
          refine absurd ?_ (hn h2.2 c (by simp))
          rcases h2.1 with h3 | h3
          · exact List.mem_append.2 (.inl (mem_decimals.2 h3))
          · simp [h3]
        · rfl

/-- A gap is skipped, or its first comment is read, without an error. -/
theorem lex_quiet_gap {m : Mode} {x g : Str} {cs : List (Str × Str)} (h : Gap true x g cs)
    (hx : (lex m x).err = none) : (lex m (g ++ x)).err = none := by
  induction h with
  | nil => exact hx
  | space c g cs hc hg ih =>
    rw [List.cons_append, lex_space (white_iff.1 hc)]
    exact ih
  | comment raw text g cs hm hc hg ih =>
    obtain ⟨r, hr, h2⟩ := commentPiece_complete hc
    rw [List.append_assoc]
    have e : raw ++ (g ++ x) = '/' :: (r ++ (g ++ x)) := by rw [hr]; rfl
    have hp : (commentPiece ('/' :: (r ++ (g ++ x)))).2.2 = none := by rw [← e, h2]
    cases hm' : m.comment with
    | true => rw [e, lex_comment_tok hp hm']
    | false =>
      rw [e, lex_comment_skip hp hm', ← e, h2]
      simp only [List.drop_left, LexOut.push_err]
      exact ih

/-- The next spelling does not start with one of the given runes. -/
def Free (bad : Str) : List Str → Prop
  | [] => True
  | w :: _ => ∀ c, w.head? = some c → c ∉ bad

/-- What a literal of mode `m` starts with. -/
def starts (m : Mode) : Str :=
  (if m.str then ['\'', '"'] else []) ++ (if m.number then decimals ++ ['.'] else [])

theorem laid_quiet {m : Mode} {ws : List Str} {t : Str} (h : Laid ws t) (hf : Free (starts m) ws) :
    (lex m t).err = none := by
  cases h with
  | nil _ cs hg =>
    rw [← List.append_nil t]
    exact lex_quiet_gap hg (lex_quiet (by intro c hc; simp at hc) (by simp) (by simp) (by simp))
  | cons g cs w ws c hg ha hl =>
    have hh : (w ++ c).head? = w.head? := by
      obtain ⟨d, w', rfl⟩ := List.exists_cons_of_ne_nil ha.ne
      rfl
    refine lex_quiet_gap hg (lex_quiet ha.solid.1 (by rw [hh]; exact ha.slash) ?_ ?_)
    · intro hm d hd hc
      rw [hh] at hd
      refine hf d hd ?_
      simp only [starts, hm, if_true]
      exact List.mem_append.2 (.inl hc)
    · intro hm d hd hc
      rw [hh] at hd
      refine hf d hd ?_
      simp only [starts, hm, if_true]
      exact List.mem_append.2 (.inr hc)

variable {T : Src}

theorem Ahead.took {l l' : Lexer} {ws : List Str} (h : Ahead T l ws) (ht : Took l [] l') (he : l'.log = l.log) :
    Ahead T l' ws := by
  obtain ⟨hg, ⟨c, h1, _, hl, _⟩, _⟩ := ht
  cases hl with
  | nil _ cs hgap =>
    refine ⟨hg, laid_gap hgap (h1 ▸ h.laid), ?_, fun x hx => he.trans (h.log x hx)⟩
    obtain ⟨g', cs', hg', ha⟩ := h.from_
    rw [h1] at hg' ha
    obtain ⟨cs2, hg2⟩ := gap_append hg' hgap
    exact ⟨_, cs2, hg2, by rw [List.append_assoc]; exact ha⟩

theorem Ahead.back {l l' : Lexer} {ws : List Str} (h : Ahead T l ws) (hb : Back l l') (he : T.log ≠ none → l'.log = l.log) :
    Ahead T l' ws :=
  ⟨hb.good, by rw [hb.inp]; exact h.laid, by rw [hb.inp]; exact h.from_,
    fun x hx => (he (by intro e; rw [e] at hx; simp at hx)).trans (h.log x hx)⟩

/-- Reading in a mode in which the next spelling is no literal. -/
theorem Ahead.quiet {l : Lexer} {ws : List Str} (h : Ahead T l ws) {m : Mode} (hf : Free (starts m) ws) :
    (nextSt m l).log = l.log := nextSt_log (laid_quiet h.laid hf)

theorem free_nil (ws : List Str) : Free [] ws := by
  cases ws with
  | nil => trivial
  | cons w ws => intro c _ h; simp at h

/-- Reading a token of any kind and putting it back. -/
theorem Ahead.putBackOf {l : Lexer} {ws : List Str} (h : Ahead T l ws) {m : Mode}
    (hf : T.log ≠ none → Free (starts m) ws) : Ahead T (putBack m l) ws :=
  h.back (back_putBack h.good m) (fun he => h.quiet (hf he))

/-- Reading a token of a mode without literals and putting it back. -/
theorem Ahead.putBack {l : Lexer} {ws : List Str} (h : Ahead T l ws) (m : Mode) (hm : starts m = [] := by rfl) :
    Ahead T (putBack m l) ws :=
  h.putBackOf (fun _ => by rw [hm]; exact free_nil ws)

theorem Ahead.length {l : Lexer} {ws : List Str} (h : Ahead T l ws) : ws.length ≤ l.scanner.inp.length :=
  laid_length h.laid

/-- Wherever the spelling `w` stands on its own, it is read in mode `m` as a token of kind `t`. -/
def TokIs (m : Mode) (w : Str) (t : Token) : Prop :=
  ∀ c, Apart w c → lex m (w ++ c) = { body := w, token := t, text := w }

/-- The next token is the spelling `w`, and the cursor is at its end. -/
theorem Ahead.next_exact {l : Lexer} {w : Str} {ws : List Str} (h : Ahead T l (w :: ws)) {m : Mode} {t : Token}
    (hm : m.comment = false) (ht : TokIs m w t) :
    (nextSt m l).token = t ∧ (nextSt m l).text = w ∧ Ahead T (nextSt m l) ws ∧
      After T.1 T.2 ws (nextSt m l).scanner.inp := by
  have hl := h.laid
  have hfr := h.from_
  generalize hi : l.scanner.inp = inp at hl hfr
  cases hl with
  | cons g cs w ws c hg ha hl =>
    have e := lex_gap (m := m) (cs := cs) (by rw [hm]; exact hg)
    rw [ht c ha] at e
    have ec : (nextSt m l).scanner.inp = c := by
      simp only [nextSt, after_inp, hi, e, LexOut.raw]
      simp [← List.append_assoc]
    have haf : After T.1 T.2 ws c := by
      obtain ⟨g', cs', hg', ha'⟩ := hfr
      obtain ⟨cs2, hg2⟩ := gap_append hg' hg
      exact after_snoc ha' rfl (by rw [List.append_assoc]) hg2 ha
    refine ⟨by simp only [nextSt, hi, e], by simp only [nextSt, hi, e], ⟨good_next h.good m, ?_, ?_,
      fun x hx => (nextSt_log (by rw [hi, e])).trans (h.log x hx)⟩, ?_⟩
    · rw [ec]; exact hl
    · rw [ec]; exact ⟨[], [], .nil, haf⟩
    · rw [ec]; exact haf

/-- The next token is the spelling `w`. -/
theorem Ahead.next {l : Lexer} {w : Str} {ws : List Str} (h : Ahead T l (w :: ws)) {m : Mode} {t : Token}
    (hm : m.comment = false) (ht : TokIs m w t) :
    (nextSt m l).token = t ∧ (nextSt m l).text = w ∧ Ahead T (nextSt m l) ws := by
  obtain ⟨h1, h2, h3, _⟩ := h.next_exact hm ht
  exact ⟨h1, h2, h3⟩

/-- Reading a known token and putting it back. -/
theorem Ahead.putBackTok {l : Lexer} {w : Str} {ws : List Str} (h : Ahead T l (w :: ws)) {m : Mode} {t : Token}
    (hm : m.comment = false) (ht : TokIs m w t) : Ahead T (Lexer.putBack m l) (w :: ws) :=
  have hb := back_putBack h.good m
  ⟨hb.good, by rw [hb.inp]; exact h.laid, by rw [hb.inp]; exact h.from_, (h.next hm ht).2.2.log⟩

theorem Ahead.eof {l : Lexer} (h : Ahead T l []) {m : Mode} (hm : m.comment = false) :
    (nextSt m l).token = .eof ∧ (nextSt m l).text = [] ∧ Ahead T (nextSt m l) [] := by
  have hl := h.laid
  generalize hi : l.scanner.inp = inp at hl
  have key : (nextSt m l).token = .eof := by
    cases hl with
    | nil _ cs hg =>
      have e := lex_gap (m := m) (rest := []) (cs := cs) (by rw [hm]; exact hg)
      have e2 : lex m [] = { token := .eof } := by
        rw [lex_token (by decide) (by decide)]; simp [tokenAt]
      rw [e2, List.append_nil] at e
      simp only [nextSt, hi, e]
  obtain ⟨h1, h2, h3⟩ := eof_took h.good hm key
  exact ⟨key, h3, h.took h1 (h.quiet trivial)⟩

/-- Whatever is read starts where the next spelling starts. -/
theorem Ahead.body_head {l : Lexer} {w : Str} {ws : List Str} (h : Ahead T l (w :: ws)) {m : Mode}
    (hm : m.comment = false) {c : Char} (hc : (nextTok m l).text.head? = some c) : w.head? = some c := by
  have hl := h.laid
  generalize hi : l.scanner.inp = inp at hl
  cases hl with
  | cons g cs w ws d hg ha hl =>
    have e := lex_gap_eq hm hg ha.solid
    have e2 := drop_raw m (g ++ (w ++ d))
    have hc' : (lex m (g ++ (w ++ d))).body.head? = some c := by
      rw [← hi]; exact hc
    rw [LexOut.raw, e] at e2
    rw [List.append_assoc] at e2
    have e3 := List.append_cancel_left e2
    obtain ⟨x, xs, rfl⟩ := List.exists_cons_of_ne_nil ha.ne
    cases hb : (lex m (g ++ (x :: xs ++ d))).body with
    | nil => rw [hb] at hc'; simp at hc'
    | cons y ys =>
      rw [hb] at hc' e3
      simp at hc' e3
      simp [e3.1, hc']

theorem free_cons {bad : Str} {c : Char} {w : Str} {ws : List Str} (hc : c ∉ bad) :
    Free bad ((c :: w) :: ws) := by
  intro d hd
  simp only [List.head?_cons, Option.some.injEq] at hd
  exact hd ▸ hc

theorem free_word {bad : Str} {w : Str} {ws : List Str} (hw : Word w)
    (hb : ∀ c ∈ bad, ¬ WordStart c) : Free bad (w :: ws) := by
  cases hw with
  | mk c w hc _ => exact free_cons (fun h => hb c h hc)

theorem Free.mono {bad bad' : Str} {ws : List Str} (h : Free bad ws) (hs : ∀ c ∈ bad', c ∈ bad) :
    Free bad' ws := by
  cases ws with
  | nil => trivial
  | cons w ws => exact fun c hc hb => h c hc (hs c hb)

/-- A punctuation token is only read if its rune is there. -/
theorem Ahead.ne_punct {l : Lexer} {ws : List Str} (h : Ahead T l ws) {m : Mode} {t : Token} {c : Char}
    (hm : m.comment = false) (hp : punctuation t = some c) {bad : Str} (hf : Free bad ws)
    (hc : c ∈ bad) : (nextSt m l).token ≠ t := by
  intro hk
  have h1 : t ≠ .eof := by rintro rfl; simp [punctuation] at hp
  have h2 : t ≠ .illegal := by rintro rfl; simp [punctuation] at hp
  cases ws with
  | nil => exact h1 (hk.symm.trans (h.eof hm).1)
  | cons w ws =>
    have := got_next hm hk h1 h2
    have hx : (nextTok m l).text = [c] := by
      have h3 := this.reads
      generalize (nextTok m l).text = x at h3
      cases t <;> simp [punctuation] at hp <;> subst hp <;>
        simpa [Reads, punctuation, spelling] using h3
    exact hf c (h.body_head hm (by rw [hx]; rfl)) hc

/-- A string literal is only read if a quote is there. -/
theorem Ahead.ne_str {l : Lexer} {ws : List Str} (h : Ahead T l ws) {m : Mode}
    (hm : m.comment = false) (hf : Free ['\'', '"'] ws) : (nextSt m l).token ≠ .strLit := by
  intro hk
  cases ws with
  | nil => exact absurd (hk.symm.trans (h.eof hm).1) (by simp)
  | cons w ws =>
    have := got_next hm hk (by simp) (by simp)
    have hx : StrLit (nextTok m l).text := this.reads
    obtain ⟨q, b, hq, _, hb⟩ := hx
    exact hf q (h.body_head hm (by rw [hb]; rfl)) (by rcases hq with rfl | rfl <;> decide)

/-! ## Spellings and tokens -/

theorem tokIs_word (m : Mode) {w : Str} (hw : Word w) : TokIs m w (wordToken m w) :=
  fun _ ha => lex_word m hw (ha.word (.inl hw))

/-- A word is an identifier in mode 0. -/
theorem tokIs_ident {w : Str} (hw : Word w) : TokIs {} w .ident := by
  have := tokIs_word {} hw
  simpa [wordToken] using this

theorem spelling_word {t : Token} {w : Str} (h : spelling t = some w) : Word w := by
  cases t <;> simp [spelling] at h <;> subst h <;>
    exact .mk _ _ (by unfold WordStart; decide) (by unfold WordChar; decide)

/-- A keyword. -/
theorem tokIs_keyword {t : Token} {w : Str} {m : Mode} (hk : m.keyword = true) (hb : m.bool = false)
    (hn : m.number = false) (hs : spelling t = some w) : TokIs m w t := by
  have hw : Word w := spelling_word hs
  have := tokIs_word m hw
  have e : wordToken m w = t := by
    have h1 := spelling_keyword hs
    have h2 := spelling_ne_illegal hs
    simp [wordToken, hk, hb, hn, h1, h2]
  rwa [e] at this

theorem lex_single {m : Mode} {c : Char} (d : Str)
    (h1 : isSpace c = false ∧ c ≠ '/' ∧ isLetter c = false ∧ c ≠ '_')
    (hq : isQuote c = true → m.str = false)
    (hn : isDecimalDigit c = true ∨ c = '.' → m.number = false) :
    lex m (c :: d) = { body := [c], token := asMiscToken c, text := [c] } := by
  obtain ⟨h2, h3, h4, h5⟩ := h1
  rw [lex_token (by simp [h2]) (by simpa using h3)]
  have h6 : ¬ (isQuote c = true ∧ m.str = true) := fun h => by simp [hq h.1] at h
  have h7 : ¬ ((isDecimalDigit c = true ∨ c = '.') ∧ m.number = true) := fun h => by simp [hn h.1] at h
  simp only [tokenAt, hd_cons, reduceCtorEq, if_false, h4, h5, Bool.false_eq_true, or_self, h6, h7]

theorem tokIs_punct {m : Mode} {c : Char} {t : Token} (hp : punctuation t = some c)
    (hm : m.number = true → t ≠ .dot) : TokIs m [c] t := by
  intro d _
  have hm' : t = .dot → m.number = false := by
    intro h; cases hn : m.number with
    | false => rfl
    | true => exact absurd h (hm hn)
  cases t <;> simp [punctuation] at hp <;> subst hp <;>
    exact lex_single d (by decide) (fun h => absurd h (by decide))
      (fun h => by first | exact absurd h (by decide) | exact hm' rfl)

theorem tokIs_quote {m : Mode} {w : Str} (hw : Quote w) (hm : m.str = false) : TokIs m w .quote := by
  intro d _
  rcases hw with rfl | rfl <;>
  exact lex_single d (by decide) (fun _ => hm) (fun h => absurd h (by decide))

theorem tokIs_plus {m : Mode} : TokIs m c!"+" .illegal := by
  intro d _
  exact lex_single d (by decide) (fun h => absurd h (by decide)) (fun h => absurd h (by decide))

theorem intLit_head {w : Str} (h : IntLit w) : ∃ c w', w = c :: w' ∧ c ∈ decimals := by
  cases h with
  | decimal c w h _ _ => exact ⟨c, w, rfl, h⟩
  | octal w _ => exact ⟨'0', w, rfl, by decide⟩
  | hex x w _ _ _ => exact ⟨'0', x :: w, rfl, by decide⟩

theorem digit_not_wordStart {c : Char} (h : c ∈ decimals ∨ c = '.') : ¬ WordStart c := by
  have hc : c ∈ decimals ++ ['.'] := by simpa using h
  have key : ∀ c ∈ decimals ++ ['.'], ¬ (c ∈ letters ∨ c = '_') := by decide
  exact key c hc

theorem not_word_of_digit {c : Char} {w : Str} (h : c ∈ decimals ∨ c = '.') : ¬ Word (c :: w) := by
  intro hw
  cases hw with
  | mk _ _ hc _ => exact digit_not_wordStart h hc

theorem numNext_word {c : Char} (h : numNext c ∨ c ∈ hexes) : WordChar c ∨ c = '.' := by
  have hc : c ∈ decimals ++ ['.', 'e', 'E', 'x', 'X'] ++ hexes := by
    simpa [numNext, or_assoc] using h
  have key : ∀ c ∈ decimals ++ ['.', 'e', 'E', 'x', 'X'] ++ hexes,
      (c ∈ letters ∨ c ∈ decimals ∨ c = '_') ∨ c = '.' := by decide
  exact key c hc

theorem tokIs_int {m : Mode} (hm : m.number = true) {w : Str} (hw : IntLit w) : TokIs m w .intLit := by
  intro d ha
  obtain ⟨c, w', rfl, hc⟩ := intLit_head hw
  have h1 := ha.word (.inr (.inl hw))
  have h2 := ha.dot (.inl hw) (not_word_of_digit (.inl hc))
  refine Props.lex_number hm (.inl hc) (numPiece_int hw (fun e he h => ?_))
  rcases numNext_word h with h | h
  · exact h1 e he h
  · exact h2 e he h

theorem floatLit_head {w : Str} (h : FloatLit w) :
    (∃ c w', w = c :: w' ∧ (c ∈ decimals ∨ c = '.')) ∨ w = c!"inf" ∨ w = c!"nan" := by
  cases h with
  | full d f e hd _ _ =>
    obtain ⟨c, d', rfl⟩ := List.exists_cons_of_ne_nil hd.1
    exact .inl ⟨c, _, rfl, .inl (hd.2 c (by simp))⟩
  | exp d e hd _ =>
    obtain ⟨c, d', rfl⟩ := List.exists_cons_of_ne_nil hd.1
    exact .inl ⟨c, _, rfl, .inl (hd.2 c (by simp))⟩
  | frac f e _ _ => exact .inl ⟨'.', _, rfl, .inr rfl⟩
  | inf => exact .inr (.inl rfl)
  | nan => exact .inr (.inr rfl)

theorem word_inf : Word c!"inf" := .mk 'i' _ (by unfold WordStart; decide) (by unfold WordChar; decide)
theorem word_nan : Word c!"nan" := .mk 'n' _ (by unfold WordStart; decide) (by unfold WordChar; decide)

theorem tokIs_float {m : Mode} (hm : m.number = true) {w : Str} (hw : FloatLit w) :
    TokIs m w .floatLit := by
  rcases floatLit_head hw with ⟨c, w', rfl, hc⟩ | rfl | rfl
  · intro d ha
    have h1 := ha.word (.inr (.inr hw))
    refine Props.lex_number hm hc (numPiece_float hw (ha.zero hw) ?_ ?_ (fun e he h => ?_))
    · rintro h; simp only [List.cons.injEq] at h; exact absurd (h.1 ▸ hc) (by decide)
    · rintro h; simp only [List.cons.injEq] at h; exact absurd (h.1 ▸ hc) (by decide)
    · refine h1 e he ?_
      rcases h with h | rfl | rfl
      · exact .inr (.inl h)
      · exact .inl (by decide)
      · exact .inl (by decide)
  · have := tokIs_word m word_inf
    simpa [wordToken, hm, isFloatLitKeyword, isBoolLit] using this
  · have := tokIs_word m word_nan
    simpa [wordToken, hm, isFloatLitKeyword, isBoolLit] using this

/-- A number. -/
theorem tokIs_number {m : Mode} (hm : m.number = true) {w : Str} (hw : Number w) :
    ∃ t, (t = .intLit ∨ t = .floatLit) ∧ TokIs m w t := by
  rcases hw with hw | hw
  · exact ⟨_, .inl rfl, tokIs_int hm hw⟩
  · exact ⟨_, .inr rfl, tokIs_float hm hw⟩

theorem tokIs_str {m : Mode} (hm : m.str = true) {w : Str} (hw : StrLit w) : TokIs m w .strLit := by
  intro d _
  have h1 := strPiece_complete (r := d) hw
  obtain ⟨q, b, hq, _, rfl⟩ := hw
  have : isQuote q = true := isQuote_iff.2 hq
  rcases hq with rfl | rfl <;>
  · simp only [List.cons_append, List.append_assoc, List.nil_append] at h1 ⊢
    rw [lex_token (by simp; decide) (by simp)]
    simp [tokenAt, isLetter, isQuote, hm, h1, LexOut.ofPiece]

/-! ## Steps -/

section
variable {α β : Type} {H : Halt → Prop} {Q : α → Lexer → Prop} {E : Err → Lexer → Prop} {l : Lexer}
variable {w : Str} {ws : List Str}

theorem sat_pos {p : Prop} [Decidable p] {a b : P α} (hp : p) (h : Sat H Q E (a l)) :
    Sat H Q E ((if p then a else b) l) := by rw [if_pos hp]; exact h

theorem sat_neg {p : Prop} [Decidable p] {a b : P α} (hp : ¬ p) (h : Sat H Q E (b l)) :
    Sat H Q E ((if p then a else b) l) := by rw [if_neg hp]; exact h

/-- Reading an expected token. -/
theorem go_expect {nx : P Unit} {m : Mode} {t : Token} (h : Ahead T l (w :: ws)) (hn : IsNext nx m)
    (hm : m.comment = false) (ht : TokIs m w t) {s : String} {f : Unit → P α}
    (hf : ∀ l', l'.token = t → l'.text = w → Ahead T l' ws → Sat H Q E (f () l')) :
    Sat H Q E ((Parser.expect nx t s >>= f) l) := by
  obtain ⟨h1, h2, h3⟩ := h.next hm ht
  have hr : Parser.expect nx t s l = .ok () (nextSt m l) := by
    unfold Parser.expect
    refine (bind_ok (hn.run h.good)).trans ?_
    refine (bind_ok (run_tok _)).trans ?_
    simp [h1]
    rfl
  show Sat H Q E (M.bind _ f l)
  unfold M.bind
  rw [hr]
  exact hf _ h1 h2 h3

/-- Without errors. -/
def NoErr : Err → Lexer → Prop := fun _ _ => False

theorem orUnexpected_go {m : P α} {s : String} (h : Sat H Q NoErr (m l)) :
    Sat H Q E (Parser.orUnexpected m s l) := by
  unfold Parser.orUnexpected
  refine Sat.bind (Q := fun a l' => match a with | .ok a => Q a l' | .error _ => False)
    (Sat.attempt h (fun _ _ h => h) (fun e l' h => h.elim)) ?_
  intro a l' h'
  cases a with
  | ok a => exact h'
  | error e => exact h'.elim

theorem go_attempt {m : P α} {f : Except Err α → P β} {Q' : β → Lexer → Prop}
    (h : Sat H Q NoErr (m l)) (hf : ∀ a l', Q a l' → Sat H Q' E (f (.ok a) l')) :
    Sat H Q' E ((M.attempt m >>= f) l) := by
  refine Sat.bind (Q := fun a l' => match a with | .ok a => Q a l' | .error _ => False)
    (Sat.attempt h (fun _ _ h => h) (fun e l' h => h.elim)) ?_
  intro a l' h'
  cases a with
  | ok a => exact hf a l' h'
  | error e => exact h'.elim

theorem Sat.run {m : P α} (h : Sat NoHalt Q NoErr (m l)) : ∃ a l', m l = .ok a l' ∧ Q a l' := by
  cases hr : m l with
  | ok a l' => rw [hr] at h; exact ⟨a, l', rfl, h⟩
  | err e l' => rw [hr] at h; exact h.elim
  | halt k => rw [hr] at h; exact h.elim

theorem sat_run {m : P β} {f : β → P α} {a : β} {l' : Lexer} (hr : m l = .ok a l')
    (h : Sat H Q E (f a l')) : Sat H Q E ((m >>= f) l) := by
  show Sat H Q E (M.bind m f l)
  unfold M.bind
  rw [hr]
  exact h

theorem Sat.also {Q2 : α → Lexer → Prop} {r : Res Lexer Err α} (h : Sat H Q E r) (h' : Sat H Q2 E r) :
    Sat H (fun a l => Q a l ∧ Q2 a l) E r := by
  cases r with
  | ok a l => exact ⟨h, h'⟩
  | err => exact h
  | halt => exact h

theorem unNextTo_log {r : Str} {l l' : Lexer} (h : unNextTo r l = .ok () l') : l'.log = l.log := by
  have e : unNextTo r l = .ok () (match unNextTo r l with | .ok _ l' => l' | _ => l) := rfl
  rw [e] at h
  injection h with _ h
  rw [← h]
  rfl

theorem peekN2_log {t : Token} {l' : Lexer} (hg : Good l) (h : peekN 2 l = .ok t l') :
    l'.log = (nextSt {} (nextSt {} l)).log := by
  have hg1 := good_next hg {}
  have e : peekN 2 l = (do
      unNextAll [(nextSt {} (nextSt {} l)).rawText, (nextSt {} l).rawText]
      return (nextSt {} (nextSt {} l)).token : P Token) (nextSt {} (nextSt {} l)) := by
    unfold peekN
    refine (bind_ok (a := [(nextSt {} l).rawText, (nextSt {} (nextSt {} l)).rawText])
      (s' := nextSt {} (nextSt {} l)) ?_).trans ?_
    · unfold peekNLoop
      refine (bind_ok (run_next hg)).trans ?_
      refine (bind_ok (run_get _)).trans ?_
      unfold peekNLoop
      refine (bind_ok (run_next hg1)).trans ?_
      refine (bind_ok (run_get _)).trans ?_
      rfl
    refine (bind_ok (run_tok _)).trans ?_
    rfl
  rw [e] at h
  injection h with _ h
  rw [← h]

/-- Reading comments. -/
theorem Parser.parseCommentsLoop_log (n : Nat) : ∀ {l : Lexer} {acc : List Comment}, Ahead T l ws → l.scanner.inp.length < n →
    Sat H (fun _ l' => l'.log = l.log) E (Parser.parseCommentsLoop n acc l) := by
  induction n with
  | zero => intro l acc _ h; omega
  | succ n ih =>
    intro l acc h hn
    have hq : (nextSt .commentMode l).log = l.log := h.quiet (free_nil ws)
    show Sat H _ E (M.bind (M.attempt Parser.parseComment) _ l)
    unfold M.bind M.attempt
    rw [Parser.parseComment_eq h.good]
    by_cases hc : (nextSt .commentMode l).token = .comment
    · simp only [hc, if_true]
      have ht := nextComment_took h.good hc
      refine (ih (h.took ht.1 hq) ?_).mono (fun _ _ h' => h'.trans hq) (fun _ _ h => h)
      obtain ⟨_, g, raw, cs, h3, _, h5, _⟩ := ht
      have := Parser.comment_length h5
      have := congrArg List.length h3
      simp only [List.length_append] at this
      omega
    · simp only [hc, if_false]
      exact hq

theorem Parser.parseComments_log (h : Ahead T l ws) : Sat H (fun _ l' => l'.log = l.log) E (Parser.parseComments l) := by
  unfold Parser.parseComments
  rw [sat_bound]
  exact Parser.parseCommentsLoop_log _ h (by omega)

theorem Parser.parseInlineComment_log (h : Ahead T l ws) :
    Sat H (fun _ l' => l'.log = l.log) E (Parser.parseInlineComment l) := by
  have hq : (nextSt .commentMode l).log = l.log := h.quiet (free_nil ws)
  unfold Parser.parseInlineComment
  rw [sat_position]
  show Sat H _ E (M.bind (M.attempt Parser.parseComment) _ l)
  unfold M.bind M.attempt
  rw [Parser.parseComment_eq h.good]
  by_cases hc : (nextSt .commentMode l).token = .comment
  · simp only [hc, if_true]
    refine sat_ite (fun h1 => ?_) (fun h1 => ?_)
    · refine sat_unNext ?_
      exact hq
    · exact hq
  · simp only [hc, if_false]
    exact hq

theorem go_comments {f : List Comment → P α} (h : Ahead T l ws)
    (hf : ∀ cs l', Ahead T l' ws → Sat H Q E (f cs l')) : Sat H Q E ((Parser.parseComments >>= f) l) := by
  refine Sat.bind ((Parser.parseComments_sat h.good).also (Parser.parseComments_log h)) ?_
  rintro cs l' ⟨⟨h1, h2, h3, _⟩, h4⟩
  exact hf cs l' (h.took (h1.took h2 h3) h4)

theorem go_inline {f : Option Comment → P α} (h : Ahead T l ws)
    (hf : ∀ c l', Ahead T l' ws → Sat H Q E (f c l')) :
    Sat H Q E ((Parser.parseInlineComment >>= f) l) := by
  refine Sat.bind ((Parser.parseInlineComment_sat h.good).also (Parser.parseInlineComment_log h)) ?_
  rintro c l' ⟨⟨h1, _⟩, h2⟩
  exact hf c l' (h.took h1 h2)

/-- Looking at the token after the next. -/
theorem go_peekN2 {t : Token} (h : Ahead T l (w :: ws)) (ht : TokIs {} w t) (hp : PlainToken t) {f : Token → P α}
    (hf : ∀ l', Ahead T l' (w :: ws) → Sat H Q E (f (nextSt {} (nextSt {} l)).token l')) :
    Sat H Q E ((peekN 2 >>= f) l) := by
  obtain ⟨l4, h4, _, hb⟩ := peekN2_run h.good
  obtain ⟨h1, _, h3⟩ := h.next (m := {}) rfl ht
  refine sat_run h4 (hf l4 (h.back (hb (h1 ▸ hp)) (fun _ => ?_)))
  have hl : l4.log = (nextSt {} (nextSt {} l)).log := peekN2_log h.good h4
  rw [hl, h3.quiet (m := {}) (free_nil ws), h.quiet (m := {}) (free_nil _)]

end

end Verif
