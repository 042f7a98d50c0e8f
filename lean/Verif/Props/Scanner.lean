import Verif.Proofs.Lexeme
import Verif.Spec.History

/-!
# Properties of the scanner (C01, C03-C15)
-/

set_option backward.isDefEq.respectTransparency false
set_option backward.dsimp.instances true

namespace Verif.Props
open Scanner Spec

/-- A sample scanner, used to show that hypotheses can be met. -/
def sample : Scanner := (Scanner.new c!"  /* c */ // d\n  syntax = \"proto3\"; 0x1F 1.5e3 // e" c!"f.proto")

theorem sample_nulFree : NulFree sample.inp := by unfold NulFree; decide

/-! ## C14: scanning terminates and makes progress -/

/-- C14: every scan returns. -/
theorem scan_total (s : Scanner) (h : NulFree s.inp) : ∃ r s', scan s = .ok r s' := ⟨_, _, scan_eq h⟩

theorem scan_inv {s s' : Scanner} {r : Scanned} (h : NulFree s.inp) (hs : scan s = .ok r s') :
    r = (lex s.mode s.inp).scanned s.pos ∧ s' = (lex s.mode s.inp).after s := by
  rw [scan_eq h] at hs
  injection hs with h1 h2
  exact ⟨h1.symm, h2.symm⟩

theorem raw_ne_nil {m : Mode} {t : Str} (h : (lex m t).token ≠ .eof) : (lex m t).raw ≠ [] := by
  obtain ⟨g, cs, raw, rest, _, _, _, h1, h2, h3⟩ := lex_lexeme m t
  intro h0
  simp only [LexOut.raw, h1, h2, List.append_eq_nil_iff] at h0
  obtain ⟨rfl, rfl⟩ := h0
  rcases h3 with ⟨_, h3, _⟩ | ⟨⟨e, he⟩, _, _, h3, _⟩
  · generalize (lex m t).token = tk at *
    generalize (lex m t).text = tx at *
    cases h3 with
    | eof => exact h rfl
    | word _ _ hw => cases hw
    | str _ _ hw => obtain ⟨q, b, _, _, hw⟩ := hw; simp at hw
    | int _ _ hw => cases hw
    | float _ _ hw =>
      generalize hx : ([] : Str) = x at hw
      cases hw with
      | full => simp at hx
      | exp d e hd => exact hd.1 (by simpa using (List.append_eq_nil_iff.1 hx.symm).1)
      | frac => simp at hx
      | inf => simp at hx
      | nan => simp at hx
    | comment _ _ _ hw =>
      generalize hx : ([] : Str) = x at hw
      cases hw <;> simp at hx
  · -- a failed scan consumed at least the offending rune
    obtain ⟨g, cs, t', h1', _, _, h⟩ := lex_cases m t
    have hb : (lex m t).body = [] := by assumption
    rcases h with ⟨_, h⟩ | ⟨r, e, h4, _, h⟩ | ⟨r, h4, _, _, h⟩
    · rw [h] at hb he
      simp only [LexOut.withGap] at hb he
      cases t' with
      | nil => simp [tokenAt] at he
      | cons c r =>
        obtain ⟨a, x, h5, _⟩ := tokenAt_prefix m c r
        rw [h5] at hb
        simp at hb
    all_goals
      rw [h] at hb
      simp only [LexOut.withGap] at hb
      obtain ⟨a, x, h5, _⟩ := commentPiece_prefix r
      rw [h4, h5] at hb
      simp at hb

/-- C14: a scan that does not report the end shortens the remaining text. -/
theorem scan_progress {s s' : Scanner} {r : Scanned} (h : NulFree s.inp) (hs : scan s = .ok r s')
    (hr : r.token ≠ .eof) : s'.inp.length < s.inp.length := by
  obtain ⟨rfl, rfl⟩ := scan_inv h hs
  have h1 : (lex s.mode s.inp).raw.length ≠ 0 := by
    simpa using raw_ne_nil hr
  have h2 := congrArg List.length (drop_raw s.mode s.inp)
  rw [List.length_append] at h2
  rw [after_inp]
  omega

/-- C14: consequently, scanning in any sequence of modes reports the end after finitely many scans. -/
theorem scan_reaches_eof (ms : Nat → Mode) (s : Scanner) (h : NulFree s.inp) :
    ∃ n rs, observe ((List.range (n + 1)).map ms) s = some rs ∧
      (rs.map (·.token)).getLast? = some .eof := by
  induction hk : s.inp.length using Nat.strongRecOn generalizing s ms with
  | _ k ih =>
    obtain ⟨r, s', hs⟩ := scan_total { s with mode := ms 0 } h
    by_cases hr : r.token = .eof
    · exact ⟨0, [r], by simp [List.range_succ, observe, hs], by simp [hr]⟩
    · have hp := scan_progress (s := { s with mode := ms 0 }) h hs hr
      have hn : NulFree s'.inp := by
        obtain ⟨_, rfl⟩ := scan_inv (s := { s with mode := ms 0 }) h hs
        exact nulFree_after _ h
      obtain ⟨n, rs, h1, h2⟩ := ih s'.inp.length (by simpa [← hk] using hp)
        (fun n => ms (n + 1)) s' hn rfl
      refine ⟨n + 1, r :: rs, ?_, ?_⟩
      · rw [List.range_succ_eq_map, List.map_cons, List.map_map]
        simp only [observe, hs, Function.comp_def, h1, Option.map_some]
      · rw [List.map_cons, List.getLast?_cons, h2]
        rfl

/-! ## C01: undoing a scan -/

/-- C01: after a scan and its undoing, the remaining text, the position and the mode are as before,
and the record of comments has at most grown. -/
theorem unscan_restores {s s' : Scanner} {r : Scanned} (h : NulFree s.inp) (hs : scan s = .ok r s') :
    s'.unScan.inp = s.inp ∧ s'.unScan.pos = s.pos ∧ s'.unScan.mode = s.mode ∧
      ∃ cs, s'.unScan.comments = s.comments ++ cs := by
  obtain ⟨rfl, rfl⟩ := scan_inv h hs
  rw [unScan_after]
  exact ⟨rfl, rfl, rfl, _, rfl⟩

theorem observe_congr (ms : List Mode) : ∀ (s t : Scanner), NulFree s.inp → s.inp = t.inp →
    s.pos = t.pos → observe ms s = observe ms t := by
  induction ms with
  | nil => intros; rfl
  | cons m ms ih =>
    intro s t hn hi hp
    have e1 := scan_eq (s := { s with mode := m }) hn
    have e2 := scan_eq (s := { t with mode := m }) (by rw [← hi]; exact hn)
    simp only [observe, e1, e2]
    rw [ih _ ((lex m t.inp).after { t with mode := m })]
    · simp [hi, hp]
    · exact nulFree_after _ hn
    · simp [hi]
    · simp [hi, hp]

/-- C01: no client can tell a scan and its undoing from nothing, whatever it scans next. -/
theorem unscan_unobservable {s s' : Scanner} {r : Scanned} (h : NulFree s.inp)
    (hs : scan s = .ok r s') (ms : List Mode) : observe ms s'.unScan = observe ms s := by
  obtain ⟨h1, h2, _⟩ := unscan_restores h hs
  exact observe_congr ms _ _ (by rw [h1]; exact h) h1 h2

example : ∃ r s', scan sample = .ok r s' ∧ s' ≠ sample ∧ s'.unScan.inp = sample.inp := by
  obtain ⟨r, s', h⟩ := scan_total sample sample_nulFree
  refine ⟨r, s', h, ?_, (unscan_restores sample_nulFree h).1⟩
  rintro rfl
  have := scan_progress sample_nulFree h (by
    obtain ⟨rfl, _⟩ := scan_inv sample_nulFree h
    decide +kernel)
  omega

/-! ## C03: losslessness -/

theorem scan_raw {s s' : Scanner} {r : Scanned} (h : NulFree s.inp) (hs : scan s = .ok r s') :
    s.inp = s'.raw ++ s'.inp := by
  obtain ⟨_, rfl⟩ := scan_inv h hs
  rw [after_raw, after_inp]
  exact drop_raw _ _

/-- C03: in any sequence of scans the consumed texts and the remaining text make up the input. -/
theorem scans_lossless {s s' : Scanner} {rs : List (Scanned × Str)} (h : NulFree s.inp)
    (hs : Scans s rs s') : s.inp = (rs.map (·.2)).flatten ++ s'.inp := by
  induction hs with
  | nil s => rfl
  | cons s s₁ s₂ m r rs h1 h2 ih =>
    have e := scan_raw (s := { s with mode := m }) h h1
    simp only at e
    rw [e] at h
    rw [e, ih h.right]
    simp

theorem eof_inp {s s' : Scanner} {r : Scanned} (h : NulFree s.inp) (hs : scan s = .ok r s')
    (hr : r.token = .eof) : s'.inp = [] := by
  obtain ⟨rfl, rfl⟩ := scan_inv h hs
  obtain ⟨g, cs, raw, rest, h0, _, _, h1, h2, h3⟩ := lex_lexeme s.mode s.inp
  have hr' : (lex s.mode s.inp).token = .eof := hr
  have hraw : (lex s.mode s.inp).raw = g ++ raw := by simp [LexOut.raw, h1, h2]
  have hi : ((lex s.mode s.inp).after s).inp = rest := by
    rw [after_inp, hraw, h0]
    rw [← List.append_assoc]
    simp
  rcases h3 with ⟨_, h3, _⟩ | ⟨_, h3, _⟩
  · rw [hr'] at h3
    rw [hi]
    generalize (lex s.mode s.inp).text = x at h3
    clear hi hraw h2 h1 h0
    cases h3 with
    | eof h => exact h
    | word _ _ _ _ hc => cases hc; next hs => simp [spelling] at hs
    | punct _ _ hp => simp [punctuation] at hp
  · rw [hr'] at h3
    simp at h3

/-- C03: if the last scan reports the end, the consumed texts are exactly the input. -/
theorem scans_lossless_eof {s s' : Scanner} {rs : List (Scanned × Str)} {r : Scanned} {w : Str}
    (h : NulFree s.inp) (hs : Scans s (rs ++ [(r, w)]) s') (hr : r.token = .eof) :
    s.inp = ((rs ++ [(r, w)]).map (·.2)).flatten := by
  have e := scans_lossless h hs
  have : s'.inp = [] := by
    clear e
    generalize hl : rs ++ [(r, w)] = l at hs
    induction hs generalizing rs with
    | nil s => simp at hl
    | cons s s₁ s₂ m r₁ rs₁ h1 h2 ih =>
      have hn : NulFree s₁.inp := by
        obtain ⟨_, rfl⟩ := scan_inv (s := { s with mode := m }) h h1
        exact nulFree_after _ h
      cases rs with
      | nil =>
        simp only [List.nil_append, List.cons.injEq, Prod.mk.injEq] at hl
        obtain ⟨⟨rfl, rfl⟩, rfl⟩ := hl
        cases h2
        exact eof_inp (s := { s with mode := m }) h h1 hr
      | cons x rs =>
        simp only [List.cons_append, List.cons.injEq] at hl
        exact ih hn hl.2
  rw [e, this]
  simp

example : ∃ rs s', Scans sample rs s' ∧ 7 ≤ rs.length := by
  have hn : ∀ (k : Nat) (s : Scanner), NulFree s.inp → ∃ rs s', Scans s rs s' ∧ rs.length = k := by
    intro k
    induction k with
    | zero => intro s _; exact ⟨[], s, .nil s, rfl⟩
    | succ k ih =>
      intro s hn
      obtain ⟨r, s', hs⟩ := scan_total { s with mode := {} } hn
      have hn' : NulFree s'.inp := by
        obtain ⟨_, rfl⟩ := scan_inv (s := { s with mode := {} }) hn hs
        exact nulFree_after _ hn
      obtain ⟨rs, s'', h, hl⟩ := ih s' hn'
      exact ⟨_, s'', .cons _ _ _ _ _ _ hs h, by simp [hl]⟩
  obtain ⟨rs, s', h, hl⟩ := hn 7 sample sample_nulFree
  exact ⟨rs, s', h, by omega⟩

/-! ## C04: positions -/

theorem hist_inv {f src : Str} (h : NulFree src) {s : Scanner} (hs : Hist f src s) :
    ∃ pre, src = pre ++ s.inp ∧ s.pos = (SPos.new f).advanceAll pre := by
  induction hs with
  | start => exact ⟨[], rfl, rfl⟩
  | mode s m _ ih => exact ih
  | scan s s' r _ h1 ih =>
    obtain ⟨pre, e, hp⟩ := ih
    have hn : NulFree s.inp := (e ▸ h : NulFree (pre ++ s.inp)).right
    have hr := scan_raw hn h1
    obtain ⟨_, rfl⟩ := scan_inv hn h1
    refine ⟨pre ++ (lex s.mode s.inp).raw, ?_, ?_⟩
    · rw [e, List.append_assoc, ← after_raw (lex s.mode s.inp) s, ← hr]
    · simp [hp]
  | undo s s' r _ h1 ih =>
    obtain ⟨pre, e, hp⟩ := ih
    have hn : NulFree s.inp := (e ▸ h : NulFree (pre ++ s.inp)).right
    obtain ⟨h2, h3, _⟩ := unscan_restores hn h1
    exact ⟨pre, by rw [h2]; exact e, by rw [h3]; exact hp⟩

theorem hist_nulFree {f src : Str} (h : NulFree src) {s : Scanner} (hs : Hist f src s) :
    NulFree s.inp := by
  obtain ⟨pre, e, _⟩ := hist_inv h hs
  exact (e ▸ h : NulFree (pre ++ s.inp)).right

/-- C04: after any history the position is that of the first unread rune. -/
theorem position_exact {f src : Str} (h : NulFree src) {s : Scanner} (hs : Hist f src s) :
    ∃ pre, src = pre ++ s.inp ∧ s.pos.p = posAt f pre := by
  obtain ⟨pre, e, hp⟩ := hist_inv h hs
  exact ⟨pre, e, by rw [hp, SPos.advanceAll_new]⟩

/-- C04 is about positions on later lines, after multi-byte runes and after undone scans. -/
example : posAt c!"f" c!"aé\n𝔸b" = { filename := c!"f", offset := 9, line := 2, column := 3 } := by
  decide +kernel

/-! ## C05, C06: what is returned and what is skipped -/

/-- C06: a scan skips only white space and, outside comment mode, complete comments; it returns the
lexeme that follows or reports that there is none; the comments it met are recorded in order with
their texts and positions. -/
theorem scan_skips_gap {f src : Str} (h : NulFree src) {s s' : Scanner} {r : Scanned}
    (hh : Hist f src s) (hs : scan s = .ok r s') :
    ∃ pre g cs raw, src = pre ++ (g ++ (raw ++ s'.inp)) ∧ s.inp = g ++ (raw ++ s'.inp) ∧
      Gap (!s.mode.comment) (raw ++ s'.inp) g cs ∧ NotNext White (raw ++ s'.inp) ∧
      r.pos.p = posAt f (pre ++ g) ∧
      (r.error = none → Lexeme s.mode s'.inp raw r.token r.text) ∧
      (r.error ≠ none → r.token = .illegal ∧ r.text = [] ∧ LexError s.mode (raw ++ s'.inp)) ∧
      s'.comments.map (fun c => (c.literal, c.pos.p)) =
        s.comments.map (fun c => (c.literal, c.pos.p)) ++
        cs.map (fun c => (c.2, posAt f (pre ++ c.1))) ++
        (if r.token = .comment then [(r.text, r.pos.p)] else []) := by
  obtain ⟨pre, e, hp⟩ := hist_inv h hh
  obtain ⟨rfl, rfl⟩ := scan_inv (hist_nulFree h hh) hs
  obtain ⟨g, cs, raw, rest, h0, hg, hw, h1, h2, h3⟩ := lex_lexeme s.mode s.inp
  have hraw : (lex s.mode s.inp).raw = g ++ raw := by simp [LexOut.raw, h1, h2]
  have hi : ((lex s.mode s.inp).after s).inp = rest := by
    rw [after_inp, hraw]
    conv => lhs; rw [h0]
    rw [← List.append_assoc]
    simp
  have hpos : ∀ a, (s.pos.advanceAll a).p = posAt f (pre ++ a) := by
    intro a
    rw [hp, ← SPos.advanceAll_append, SPos.advanceAll_new]
  refine ⟨pre, g, cs, raw, by rw [hi, ← h0]; exact e, by rw [hi]; exact h0, by rw [hi]; exact hg,
    by rw [hi]; exact hw, ?_, ?_, ?_, ?_⟩
  · simp only [LexOut.scanned, h1, hpos]
  · intro he
    rcases h3 with ⟨_, h3, _⟩ | ⟨⟨e, h3⟩, _⟩
    · rw [hi]; exact h3
    · simp [LexOut.scanned, h3] at he
  · intro he
    rcases h3 with ⟨h3, _⟩ | ⟨_, h3, h4, h5, _⟩
    · simp [LexOut.scanned, h3] at he
    · rw [hi]; exact ⟨h3, h4, h5⟩
  · rw [after_comments, List.map_append, List.append_assoc]
    congr 1
    simp only [LexOut.texts, List.map_map, Function.comp_def, hpos]
    rcases h3 with ⟨_, _, h3⟩ | ⟨_, h4, _, _, h3⟩
    · rw [h3, List.map_append]
      congr 1
      show _ = if (lex s.mode s.inp).token = .comment then _ else _
      split
      · simp [LexOut.scanned, h1, hpos]
      · rfl
    · rw [h3]
      have : ((lex s.mode s.inp).scanned s.pos).token = .illegal := h4
      simp [this]

theorem lexeme_text {m : Mode} {rest raw text : Str} {t : Token} (h : Lexeme m rest raw t text) :
    raw = text ∨ (t = .comment ∧ raw = text ++ ['\n']) := by
  cases h with
  | comment _ _ _ hc => cases hc with
    | line b hb => right; simp
    | last b _ _ => left; rfl
    | block b _ => left; rfl
  | _ => exact .inl rfl

/-- C05: the text of a token is the source text at its position, and what remains follows it (after
the newline that ends a line comment). -/
theorem text_at_position {f src : Str} (h : NulFree src) {s s' : Scanner} {r : Scanned}
    (hh : Hist f src s) (hs : scan s = .ok r s') (he : r.error = none) :
    ∃ pre nl, src = pre ++ (r.text ++ (nl ++ s'.inp)) ∧ r.pos.p = posAt f pre ∧
      (nl = [] ∨ nl = ['\n'] ∧ r.token = .comment) := by
  obtain ⟨pre, g, cs, raw, h1, _, _, _, h2, h3, _⟩ := scan_skips_gap h hh hs
  rcases lexeme_text (h3 he) with h4 | ⟨h4, h5⟩
  · exact ⟨pre ++ g, [], by rw [h1, h4]; simp, h2, .inl rfl⟩
  · exact ⟨pre ++ g, ['\n'], by rw [h1, h5]; simp, h2, .inr ⟨rfl, h4⟩⟩

example : ∃ r s', scan sample = .ok r s' ∧ r.error = none ∧ r.text = c!"syntax" ∧
    r.pos.p = { filename := c!"f.proto", offset := 17, line := 2, column := 3 } ∧
    s'.comments.map (·.literal) = [c!"/* c */", c!"// d"] := by
  refine ⟨_, _, scan_eq sample_nulFree, ?_⟩
  decide +kernel

/-! ## Scanning a lexeme that is there -/

theorem scan_lex {s : Scanner} {g x : Str} {cs : List (Str × Str)} (hn : NulFree s.inp)
    (hi : s.inp = g ++ x) (hg : Gap (!s.mode.comment) x g cs) {b text : Str} {t : Token}
    {rest : Str} (hx : x = b ++ rest)
    (hl : (lex s.mode x) = { body := b, token := t, text := text }) :
    ∃ r s', scan s = .ok r s' ∧ r.token = t ∧ r.text = text ∧ r.error = none ∧
      r.pos = s.pos.advanceAll g ∧ s'.inp = rest := by
  refine ⟨_, _, scan_eq hn, ?_⟩
  have := lex_gap hg
  rw [hl, ← hi] at this
  rw [this]
  refine ⟨rfl, rfl, rfl, by simp [LexOut.scanned], ?_⟩
  rw [after_inp, hi, hx]
  simp only [LexOut.raw, List.append_nil]
  rw [← List.append_assoc]
  simp

theorem lex_tokenAt {m : Mode} {c : Char} {r : Str} (h : ¬ White c) (h' : c ≠ '/') :
    lex m (c :: r) = tokenAt m (c :: r) :=
  lex_token (fun hs => h (white_iff.2 hs)) h'

theorem wordStart_plain {c : Char} (h : WordStart c) : ¬ White c ∧ c ≠ '/' := by
  have hc : c ∈ letters ++ ['_'] := by simpa [WordStart] using h
  have key : ∀ c ∈ letters ++ ['_'], ¬ c.toNat ∈ whiteSpace ∧ c ≠ '/' := by decide
  exact key c hc

/-! ## C07, C08: words -/

/-- C07: a word token is a word and is maximal. -/
theorem word_maximal {f src : Str} (h : NulFree src) {s s' : Scanner} {r : Scanned}
    (hh : Hist f src s) (hs : scan s = .ok r s')
    (ht : r.token = .ident ∨ r.token = .boolLit ∨ spelling r.token ≠ none) :
    Word r.text ∧ NotNext WordChar s'.inp ∧ WordClass s.mode r.text r.token := by
  obtain ⟨pre, g, cs, raw, _, _, _, _, _, h3, h4, _⟩ := scan_skips_gap h hh hs
  by_cases he : r.error = none
  · have hl := h3 he
    generalize r.token = tk at *
    generalize r.text = tx at *
    cases hl with
    | word w t h1 h2 hc => exact ⟨h1, h2, hc⟩
    | punct c t hp _ => cases tk <;> simp [punctuation, spelling] at hp ht
    | _ => simp [spelling] at ht
  · obtain ⟨h5, _⟩ := h4 he
    rw [h5] at ht
    simp [spelling] at ht

/-- C07: every maximal word at the scan position is returned as one token; C08: its kind is the one
that the mode asks for. -/
theorem word_scanned {s : Scanner} {g w rest : Str} {cs : List (Str × Str)} (hn : NulFree s.inp)
    (hi : s.inp = g ++ (w ++ rest)) (hg : Gap (!s.mode.comment) (w ++ rest) g cs) (hw : Word w)
    (hr : NotNext WordChar rest) :
    ∃ r s', scan s = .ok r s' ∧ WordClass s.mode w r.token ∧ r.text = w ∧ r.error = none ∧
      r.pos = s.pos.advanceAll g ∧ s'.inp = rest := by
  have hl : lex s.mode (w ++ rest) = { body := w, token := wordToken s.mode w, text := w } := by
    cases hw with
    | mk c w hc hw =>
      obtain ⟨h1, h2⟩ := wordStart_plain hc
      have e : (w ++ rest).takeWhile isIdentChar = w :=
        takeWhile_append_notNext (fun d hd => wordChar_iff.1 (hw d hd))
          (fun d hd h => hr d hd (wordChar_iff.2 h))
      rw [List.cons_append, lex_tokenAt h1 h2, tokenAt_word hc, e]
  obtain ⟨r, s', h1, h2, h3⟩ := scan_lex hn hi hg rfl hl
  exact ⟨r, s', h1, h2 ▸ wordToken_class _ _, h3⟩

/-- C08: the class of a word determines its token. -/
theorem word_class_unique {m : Mode} {w : Str} {t t' : Token} (h : WordClass m w t)
    (h' : WordClass m w t') : t = t' := by
  rw [← wordClass_unique h, wordClass_unique h']

/-- C08: a word is a keyword token exactly when keyword mode is on and it is spelled like it. -/
theorem keyword_exact {m : Mode} {w k : Str} {t u : Token} (h : WordClass m w t)
    (hk : spelling u = some k) : t = u ↔ m.keyword = true ∧ w = k := by
  constructor
  · rintro rfl
    cases h with
    | keyword _ hm hs => exact ⟨hm, by rw [hs] at hk; exact Option.some.inj hk⟩
    | _ => simp [spelling] at hk
  · rintro ⟨hm, rfl⟩
    exact word_class_unique h (.keyword u hm hk)

/-- C08: Boolean and float words, and identifiers. -/
theorem literal_word_exact {m : Mode} {w : Str} {t : Token} (h : WordClass m w t) :
    (t = .boolLit ↔ m.bool = true ∧ (w = c!"true" ∨ w = c!"false")) ∧
    (t = .floatLit ↔ m.number = true ∧ (w = c!"inf" ∨ w = c!"nan")) := by
  constructor <;> constructor
  · rintro rfl
    cases h with
    | bool h1 h2 => exact ⟨h1, h2⟩
    | keyword _ _ hs => simp [spelling] at hs
  · rintro ⟨h1, h2⟩; exact word_class_unique h (.bool h1 h2)
  · rintro rfl
    cases h with
    | float h1 h2 => exact ⟨h1, h2⟩
    | keyword _ _ hs => simp [spelling] at hs
  · rintro ⟨h1, h2⟩; exact word_class_unique h (.float h1 h2)

example : Word c!"syntax_2" ∧ NotNext WordChar c!" = 1" ∧
    WordClass { keyword := true } c!"message" .kMessage ∧ WordClass {} c!"message" .ident := by
  refine ⟨.mk _ _ (by unfold WordStart; decide) (by unfold WordChar; decide), ?_,
    .keyword _ rfl rfl, .ident (by simp) (by simp) (by simp)⟩
  intro c hc
  simp only [List.head?_cons, Option.some.injEq] at hc
  subst hc
  unfold WordChar
  decide

/-! ## C09, C10: numbers -/

/-- C09: the text of an integer token is an integer literal. -/
theorem int_literal {f src : Str} (h : NulFree src) {s s' : Scanner} {r : Scanned}
    (hh : Hist f src s) (hs : scan s = .ok r s') (ht : r.token = .intLit) : IntLit r.text := by
  obtain ⟨pre, g, cs, raw, _, _, _, _, _, h3, h4, _⟩ := scan_skips_gap h hh hs
  by_cases he : r.error = none
  · have hl := h3 he
    rw [ht] at hl
    generalize r.text = tx at *
    cases hl with
    | word _ _ _ _ hc => cases hc; next hs => simp [spelling] at hs
    | int _ _ h => exact h
    | punct _ _ hp => simp [punctuation] at hp
  · obtain ⟨h5, _⟩ := h4 he
    rw [ht] at h5
    simp at h5

/-- C10: the text of a float token is a float literal. -/
theorem float_literal {f src : Str} (h : NulFree src) {s s' : Scanner} {r : Scanned}
    (hh : Hist f src s) (hs : scan s = .ok r s') (ht : r.token = .floatLit) : FloatLit r.text := by
  obtain ⟨pre, g, cs, raw, _, _, _, _, _, h3, h4, _⟩ := scan_skips_gap h hh hs
  by_cases he : r.error = none
  · have hl := h3 he
    rw [ht] at hl
    generalize r.text = tx at *
    cases hl with
    | word _ _ _ _ hc =>
      cases hc with
      | float _ h => rcases h with rfl | rfl
                     · exact .inf
                     · exact .nan
      | keyword _ _ hs => simp [spelling] at hs
    | float _ _ h => exact h
    | punct _ _ hp => simp [punctuation] at hp
  · obtain ⟨h5, _⟩ := h4 he
    rw [ht] at h5
    simp at h5

theorem digit_plain {c : Char} (h : c ∈ decimals ∨ c = '.') :
    ¬ White c ∧ c ≠ '/' ∧ isQuote c = false ∧ (isDecimalDigit c ∨ c = '.') := by
  have hc : c ∈ decimals ++ ['.'] := by simpa using h
  have key : ∀ c ∈ decimals ++ ['.'], ¬ c.toNat ∈ whiteSpace ∧ c ≠ '/' ∧ isQuote c = false := by decide
  obtain ⟨h1, h2, h3⟩ := key c hc
  exact ⟨h1, h2, h3, h.imp mem_decimals.1 id⟩

theorem lex_number {m : Mode} {c : Char} {r : Str} {t : Token} {b : Str} (hm : m.number = true)
    (hc : c ∈ decimals ∨ c = '.') (h : numPiece (c :: r) = (t, (b, none))) :
    lex m (c :: r) = { body := b, token := t, text := b } := by
  obtain ⟨h1, h2, h3, h4⟩ := digit_plain hc
  have h5 : ¬ (isLetter c ∨ c = '_') := fun h => not_wordStart_digit hc (wordStart_iff.2 h)
  rw [lex_tokenAt h1 h2]
  simp only [tokenAt, hd_cons, reduceCtorEq, if_false, h5, h3, Bool.false_eq_true, false_and, hm,
    and_true, h4, if_true, h, LexOut.ofPiece]

/-- C09: every integer literal at the scan position is scanned whole in number mode. -/
theorem int_scanned {s : Scanner} {g w rest : Str} {cs : List (Str × Str)} (hn : NulFree s.inp)
    (hm : s.mode.number = true) (hi : s.inp = g ++ (w ++ rest))
    (hg : Gap (!s.mode.comment) (w ++ rest) g cs) (hw : IntLit w)
    (hr : NotNext (fun c => numNext c ∨ c ∈ hexes) rest) :
    ∃ r s', scan s = .ok r s' ∧ r.token = .intLit ∧ r.text = w ∧ r.error = none ∧
      r.pos = s.pos.advanceAll g ∧ s'.inp = rest := by
  refine scan_lex hn hi hg rfl ?_
  have h1 := numPiece_int hw hr
  have : ∃ c w', w = c :: w' ∧ c ∈ decimals := by
    cases hw with
    | decimal c w h _ _ => exact ⟨c, w, rfl, h⟩
    | octal w _ => exact ⟨'0', w, rfl, by decide⟩
    | hex x w _ _ _ => exact ⟨'0', x :: w, rfl, by decide⟩
  obtain ⟨c, w', rfl, hc⟩ := this
  exact lex_number hm (.inl hc) h1

/-- C10, second half, for literals without superfluous leading zero. -/
theorem float_scanned_partial {s : Scanner} {g w rest : Str} {cs : List (Str × Str)}
    (hn : NulFree s.inp) (hm : s.mode.number = true) (hi : s.inp = g ++ (w ++ rest))
    (hg : Gap (!s.mode.comment) (w ++ rest) g cs) (hw : FloatLit w) (hz : ¬ LeadingZero w)
    (hr : NotNext (fun c => fracNext c ∨ WordChar c) rest) :
    ∃ r s', scan s = .ok r s' ∧ r.token = .floatLit ∧ r.text = w ∧ r.error = none ∧
      r.pos = s.pos.advanceAll g ∧ s'.inp = rest := by
  have hword : ∀ w, Word w → w = c!"inf" ∨ w = c!"nan" → s.inp = g ++ (w ++ rest) →
      Gap (!s.mode.comment) (w ++ rest) g cs →
      ∃ r s', scan s = .ok r s' ∧ r.token = .floatLit ∧ r.text = w ∧ r.error = none ∧
      r.pos = s.pos.advanceAll g ∧ s'.inp = rest := by
    intro w hw hw' hi hg
    obtain ⟨r, s', h1, h2, h3⟩ := word_scanned hn hi hg hw (fun c hc h => hr c hc (.inr h))
    exact ⟨r, s', h1, (literal_word_exact h2).2.2 ⟨hm, hw'⟩, h3⟩
  by_cases h1 : w = c!"inf"
  · exact hword w (by subst h1; exact .mk _ _ (by unfold WordStart; decide) (by unfold WordChar; decide))
      (.inl h1) hi hg
  by_cases h2 : w = c!"nan"
  · exact hword w (by subst h2; exact .mk _ _ (by unfold WordStart; decide) (by unfold WordChar; decide))
      (.inr h2) hi hg
  refine scan_lex hn hi hg rfl ?_
  have h3 := numPiece_float hw hz h1 h2 (r := rest) (fun c hc h => hr c hc (.inl h))
  have : ∃ c w', w = c :: w' ∧ (c ∈ decimals ∨ c = '.') := by
    have hd : ∀ d x : Str, Decimals d → ∃ c w', d ++ x = c :: w' ∧ (c ∈ decimals ∨ c = '.') := by
      rintro d x ⟨h1, h2⟩
      cases d with
      | nil => exact absurd rfl h1
      | cons c d => exact ⟨c, d ++ x, rfl, .inl (h2 c (by simp))⟩
    cases hw with
    | full d f e h _ _ => simpa using hd d ('.' :: f ++ e) h
    | exp d e h _ => exact hd d e h
    | frac f e _ _ => exact ⟨'.', f ++ e, rfl, .inr rfl⟩
    | inf => exact absurd rfl h1
    | nan => exact absurd rfl h2
  obtain ⟨c, w', rfl, hc⟩ := this
  exact lex_number hm hc h3

/-- C10, second half, does not hold as stated: the float literal `01.5` is scanned as the integer
`01`. -/
theorem float_leading_zero_violation :
    FloatLit c!"01.5" ∧ ∃ r s', scan { Scanner.new c!"01.5;" [] with mode := .lit } = .ok r s' ∧
      r.token = .intLit ∧ r.text = c!"01" ∧ s'.inp = c!".5;" := by
  refine ⟨.full c!"01" c!"5" [] ⟨by decide, by unfold Over; decide⟩ (by unfold Over; decide) (.inl rfl),
    _, _, scan_eq (by unfold NulFree; decide), ?_⟩
  decide +kernel

example : FloatLit c!"1.5e+3" ∧ ¬ LeadingZero c!"1.5e+3" ∧ IntLit c!"0x1F" ∧ IntLit c!"017" := by
  refine ⟨.full c!"1" c!"5" c!"e+3" ⟨by decide, by unfold Over; decide⟩ (by unfold Over; decide)
    (.inr (.signed _ _ c!"3" (by decide) (by decide) ⟨by decide, by unfold Over; decide⟩)), ?_,
    .hex _ _ (by decide) (by decide) (by unfold Over; decide), .octal _ (by unfold Over; decide)⟩
  rintro ⟨c, w, h, _⟩
  simp at h

/-! ## C11: strings -/

/-- C11: the text of a string token is a string literal. -/
theorem str_literal {f src : Str} (h : NulFree src) {s s' : Scanner} {r : Scanned}
    (hh : Hist f src s) (hs : scan s = .ok r s') (ht : r.token = .strLit) : StrLit r.text := by
  obtain ⟨pre, g, cs, raw, _, _, _, _, _, h3, h4, _⟩ := scan_skips_gap h hh hs
  by_cases he : r.error = none
  · have hl := h3 he
    rw [ht] at hl
    generalize r.text = tx at *
    cases hl with
    | word _ _ _ _ hc => cases hc; next hs => simp [spelling] at hs
    | str _ _ h => exact h
    | punct _ _ hp => simp [punctuation] at hp
  · obtain ⟨h5, _⟩ := h4 he
    rw [ht] at h5
    simp at h5

theorem quote_plain {q : Char} (h : q = '\'' ∨ q = '"') :
    ¬ White q ∧ q ≠ '/' ∧ ¬ (isLetter q ∨ q = '_') := by
  rcases h with rfl | rfl <;> (unfold White; decide)

/-- C11: every string literal at the scan position is scanned whole in string mode. -/
theorem str_scanned {s : Scanner} {g w rest : Str} {cs : List (Str × Str)} (hn : NulFree s.inp)
    (hm : s.mode.str = true) (hi : s.inp = g ++ (w ++ rest))
    (hg : Gap (!s.mode.comment) (w ++ rest) g cs) (hw : StrLit w) :
    ∃ r s', scan s = .ok r s' ∧ r.token = .strLit ∧ r.text = w ∧ r.error = none ∧
      r.pos = s.pos.advanceAll g ∧ s'.inp = rest := by
  refine scan_lex hn hi hg rfl ?_
  have h1 := strPiece_complete (r := rest) hw
  obtain ⟨q, b, hq, _, rfl⟩ := hw
  obtain ⟨h2, h3, h4⟩ := quote_plain hq
  rw [List.cons_append, List.cons_append] at h1
  rw [List.cons_append, List.cons_append, lex_tokenAt h2 h3]
  simp only [tokenAt, hd_cons, reduceCtorEq, if_false, h4, isQuote_iff.2 hq, hm, and_self, if_true,
    h1, LexOut.ofPiece]

/-- C11: the literals of the language are among them. -/
theorem grammar_str {q : Char} {b : Str} (hq : q = '\'' ∨ q = '"') (h : CharValues q b) :
    StrLit (q :: b ++ [q]) := ⟨q, b, hq, charValues_loose (isQuote_iff.2 hq) h, rfl⟩

/-- C11, C12: at a text that starts with a quote (in string mode) or a slash but with no complete
string or comment, the scan fails and yields no token text. -/
theorem unterminated {s : Scanner} {g x : Str} {cs : List (Str × Str)} (hn : NulFree s.inp)
    (hi : s.inp = g ++ x) (hg : Gap (!s.mode.comment) x g cs)
    (hx : (∃ q y, x = q :: y ∧ (q = '\'' ∨ q = '"') ∧ s.mode.str = true ∧
            ∀ w rest, x = w ++ rest → ¬ StrLit w) ∨
          (∃ y, x = '/' :: y ∧ ∀ raw text rest, x = raw ++ rest → ¬ Comment rest raw text)) :
    ∃ r s', scan s = .ok r s' ∧ r.token = .illegal ∧ r.text = [] ∧ r.error ≠ none ∧
      r.pos = s.pos.advanceAll g := by
  have key : ∃ b e, lex s.mode x = { body := b, token := .illegal, err := some e } := by
    rcases hx with ⟨q, y, rfl, hq, hm, hx⟩ | ⟨y, rfl, hx⟩
    · obtain ⟨h2, h3, h4⟩ := quote_plain hq
      cases hp : (strPiece (q :: y)).2 with
      | none =>
        obtain ⟨a, r, h5, h6⟩ := strPiece_prefix q y
        refine absurd (strPiece_sound (isQuote_iff.2 hq) hp) (hx _ r ?_)
        rw [h5, h6]; rfl
      | some e =>
        refine ⟨(strPiece (q :: y)).1, e, ?_⟩
        rw [lex_tokenAt h2 h3]
        simp only [tokenAt, hd_cons, reduceCtorEq, if_false, h4, isQuote_iff.2 hq, hm, and_self, if_true,
          hp, LexOut.ofPiece]
    · cases hp : (commentPiece ('/' :: y)).2.2 with
      | none =>
        obtain ⟨r, h5, h6⟩ := commentPiece_sound hp
        exact absurd h6 (hx _ _ r h5)
      | some e => exact ⟨_, e, lex_comment_err hp⟩
  obtain ⟨b, e, hl⟩ := key
  refine ⟨_, _, scan_eq hn, ?_⟩
  have := lex_gap hg
  rw [hl, ← hi] at this
  rw [this]
  exact ⟨rfl, rfl, by simp [LexOut.scanned], by simp [LexOut.scanned]⟩

example : StrLit c!"\"a\\\"\\x4F\\8\"" ∧ CharValues '"' c!"a\\\"\\x4F" := by
  refine ⟨⟨'"', c!"a\\\"\\x4F\\8", .inr rfl, ?_, rfl⟩, ?_⟩
  · refine .plain _ _ (by decide) (by decide) (by decide) (.escape _ _ (by decide) (.stray _ ?_ (by decide)
      (.plain _ _ (by decide) (by decide) (by decide) (.plain _ _ (by decide) (by decide) (by decide)
      (.plain _ _ (by decide) (by decide) (by decide) (.stray _ ?_ (by decide)
      (.plain _ _ (by decide) (by decide) (by decide) .nil)))))))
    all_goals
      intro c hc
      simp only [List.head?_cons, Option.some.injEq] at hc
      subst hc
      decide
  · exact .cons c!"a" _ (.plain _ (by decide) (by decide) (by decide))
      (.cons c!"\\\"" _ (.char _ (by decide)) (.cons c!"\\x4F" _
        (.hex _ _ _ (by decide) (by decide) (by decide)) .nil))

/-! ## C12: comments -/

/-- C12: a returned comment is a comment of the language. -/
theorem comment_sound {f src : Str} (h : NulFree src) {s s' : Scanner} {r : Scanned}
    (hh : Hist f src s) (hs : scan s = .ok r s') (ht : r.token = .comment) :
    ∃ raw, Comment s'.inp raw r.text := by
  obtain ⟨pre, g, cs, raw, _, _, _, _, _, h3, h4, _⟩ := scan_skips_gap h hh hs
  by_cases he : r.error = none
  · have hl := h3 he
    rw [ht] at hl
    generalize r.text = tx at *
    cases hl with
    | word _ _ _ _ hc => cases hc; next hs => simp [spelling] at hs
    | comment _ _ _ h => exact ⟨_, h⟩
    | punct _ _ hp => simp [punctuation] at hp
  · obtain ⟨h5, _⟩ := h4 he
    rw [ht] at h5
    simp at h5

theorem comment_slash {rest raw text : Str} (h : Comment rest raw text) : ∃ y, raw = '/' :: y := by
  cases h <;> exact ⟨_, rfl⟩

/-- C12: every comment at the scan position is returned whole in comment mode. -/
theorem comment_scanned {s : Scanner} {g raw text rest : Str} {cs : List (Str × Str)}
    (hn : NulFree s.inp) (hm : s.mode.comment = true) (hi : s.inp = g ++ (raw ++ rest))
    (hg : Gap (!s.mode.comment) (raw ++ rest) g cs) (hc : Comment rest raw text) :
    ∃ r s', scan s = .ok r s' ∧ r.token = .comment ∧ r.text = text ∧ r.error = none ∧
      r.pos = s.pos.advanceAll g ∧ s'.inp = rest := by
  obtain ⟨y, hy, hp⟩ := commentPiece_complete hc
  have hl : lex s.mode (raw ++ rest) =
      { coms := [([], text)], body := raw, token := .comment, text := text } := by
    have e : raw ++ rest = '/' :: (y ++ rest) := by rw [hy]; rfl
    rw [e] at hp ⊢
    rw [lex_comment_tok (by rw [hp]) hm, hp]
  refine ⟨_, _, scan_eq hn, ?_⟩
  have := lex_gap hg
  rw [hl, ← hi] at this
  rw [this]
  refine ⟨rfl, rfl, rfl, by simp [LexOut.scanned], ?_⟩
  rw [after_inp, hi]
  simp only [LexOut.raw, List.append_nil]
  rw [← List.append_assoc]
  simp

/-- C12: where a comment ends is determined by the text. -/
theorem comment_unique {rest raw text rest' raw' text' : Str} (h : Comment rest raw text)
    (h' : Comment rest' raw' text') (e : raw ++ rest = raw' ++ rest') : raw = raw' ∧ text = text' := by
  obtain ⟨_, _, h1⟩ := commentPiece_complete h
  obtain ⟨_, _, h2⟩ := commentPiece_complete h'
  rw [e, h2] at h1
  simp only [Prod.mk.injEq] at h1
  exact ⟨h1.2.1.symm, h1.1.symm⟩

/-- C12: there is no comment at an unterminated `/*`, nor at a slash followed by anything else, so
`unterminated` applies to them. -/
theorem no_comment {y : Str} (hy : (∃ b, y = '*' :: b ∧ ∀ u v, b ≠ u ++ ['*', '/'] ++ v) ∨
      NotNext (fun c => c = '/' ∨ c = '*') y) :
    ∀ raw text rest, '/' :: y = raw ++ rest → ¬ Comment rest raw text := by
  intro raw text rest e hc
  rcases hy with ⟨b, rfl, hb⟩ | hy
  · cases hc with
    | line => simp at e
    | last => simp at e
    | block b' _ =>
      simp only [List.cons_append, List.nil_append, List.cons.injEq, true_and] at e
      exact hb b' rest (by rw [e])
  · cases hc with
    | line b _ =>
      simp only [List.cons_append, List.nil_append, List.cons.injEq, true_and] at e
      exact hy '/' (by rw [e]; rfl) (.inl rfl)
    | last b _ =>
      simp only [List.cons_append, List.nil_append, List.cons.injEq, true_and] at e
      exact hy '/' (by rw [e]; rfl) (.inl rfl)
    | block b' _ =>
      simp only [List.cons_append, List.nil_append, List.cons.injEq, true_and] at e
      exact hy '*' (by rw [e]; rfl) (.inr rfl)

example : Comment c!" x" c!"/** a * / **/" c!"/** a * / **/" ∧ Comment c!"x" c!"// a\n" c!"// a" := by
  refine ⟨.block c!"* a * / *" ?_, .line c!" a" (by decide)⟩
  intro x y h
  have hl := congrArg List.length h
  have key : ∀ k < 10, (c!"* a * / **/".drop k).take 2 = ['*', '/'] → k = 9 := by decide
  simp only [List.append_assoc, List.cons_append, List.nil_append, List.length_append,
    List.length_cons, List.length_nil] at hl
  have := key x.length (by omega) (by
    have h' : c!"* a * / **/" = x ++ (['*', '/'] ++ y) := by simpa using h
    rw [h']; simp)
  cases y with
  | nil => rfl
  | cons _ _ => simp only [List.length_cons] at hl; omega

/-! ## C13: the end -/

/-- C13: the end is reported exactly when only white space and, outside comment mode, comments
remain. -/
theorem eof_exact {s s' : Scanner} {r : Scanned} (h : NulFree s.inp) (hs : scan s = .ok r s') :
    r.token = .eof ↔ ∃ cs, Gap (!s.mode.comment) [] s.inp cs := by
  obtain ⟨rfl, rfl⟩ := scan_inv h hs
  show (lex s.mode s.inp).token = .eof ↔ _
  constructor
  · intro ht
    obtain ⟨g, cs, raw, rest, h0, hg, _, _, _, h3⟩ := lex_lexeme s.mode s.inp
    rcases h3 with ⟨_, h3, _⟩ | ⟨_, h3, _⟩
    · rw [ht] at h3
      generalize (lex s.mode s.inp).text = x at h3
      cases h3 with
      | eof hr =>
        subst hr
        simp only [List.append_nil] at h0 hg
        rw [h0]
        exact ⟨cs, hg⟩
      | word _ _ _ _ hc => cases hc; next hs => simp [spelling] at hs
      | punct _ _ hp => simp [punctuation] at hp
    · rw [ht] at h3
      simp at h3
  · rintro ⟨cs, hg⟩
    have := lex_gap hg
    rw [List.append_nil] at this
    rw [this]
    show (lex s.mode []).token = .eof
    rw [lex_token (by decide) (by decide)]
    rfl

example : ∃ cs, Gap true [] c!" // a\n /* b */" cs :=
  ⟨_, .space ' ' _ _ (by unfold White; decide) (.comment c!"// a\n" _ _ _ rfl (.line c!" a" (by decide))
    (.space ' ' _ _ (by unfold White; decide) (.comment c!"/* b */" _ [] _ rfl
      (.block c!" b " (by
        intro x y h
        have hl := congrArg List.length h
        have key : ∀ k < 4, (c!" b */".drop k).take 2 = ['*', '/'] → k = 3 := by decide
        simp only [List.append_assoc, List.cons_append, List.nil_append, List.length_append,
          List.length_cons, List.length_nil] at hl
        have := key x.length (by omega) (by
          have h' : c!" b */" = x ++ (['*', '/'] ++ y) := by simpa using h
          rw [h']; simp)
        cases y with
        | nil => rfl
        | cons _ _ => simp only [List.length_cons] at hl; omega)) .nil)))⟩

end Verif.Props
