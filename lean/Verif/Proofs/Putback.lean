import Verif.Proofs.Lexeme

/-!
# Text that is put back twice

`UnNext` called twice puts the last token, with the gap before it, in front of the text twice.  If the text
contains no `/*`, what is then read is known: either the statement is complete at once, or the attempt to read
a semicolon fails now and forever (`Dead`).
-/

set_option backward.isDefEq.respectTransparency false
set_option backward.dsimp.instances true

namespace Verif
namespace Scanner
open M Spec

/-- There is no `/*` in the text. -/
def NoBlock (t : Str) : Prop := ¬ ['/', '*'] <:+: t

theorem NoBlock.suffix {t u : Str} (h : NoBlock t) (hu : u <:+ t) : NoBlock u :=
  fun hi => h (hi.trans hu.isInfix)

theorem NoBlock.tail {c : Char} {t : Str} (h : NoBlock (c :: t)) : NoBlock t :=
  h.suffix (List.suffix_cons c t)

/-- White space and complete line comments. -/
inductive LineGap : Str → Prop
  | nil : LineGap []
  | space (c : Char) (g : Str) : isSpace c = true → LineGap g → LineGap (c :: g)
  | line (b g : Str) : '\n' ∉ b → LineGap g → LineGap ('/' :: '/' :: (b ++ '\n' :: g))

/-- A text without a token: white space and line comments, perhaps a slash at the end. -/
inductive Barren : Str → Prop
  | nil : Barren []
  | space (c : Char) (g : Str) : isSpace c = true → Barren g → Barren (c :: g)
  | line (b g : Str) : '\n' ∉ b → Barren g → Barren ('/' :: '/' :: (b ++ '\n' :: g))
  | last (b : Str) : '\n' ∉ b → Barren ('/' :: '/' :: b)
  | slash : Barren ['/']

/-- A text that starts with a token other than a semicolon, or with a slash that starts no comment. -/
def FirmHead (y : Str) : Prop :=
  ∃ c r, y = c :: r ∧ isSpace c = false ∧ c ≠ ';' ∧ (c = '/' → ∃ d r', r = d :: r' ∧ d ≠ '/' ∧ d ≠ '*')

/-- The same behind white space and line comments. -/
def Firm (t : Str) : Prop := ∃ g y, LineGap g ∧ t = g ++ y ∧ FirmHead y

/-- The text `raw` was put back in front of `inp` once already, and no semicolon will be found by putting it
back again. -/
def Dead (raw inp : Str) : Prop := Firm raw ∨ (raw = inp ∧ Barren inp)

theorem isSpace_slash : isSpace '/' = false := by decide

theorem takeWhile_line {b : Str} (h : '\n' ∉ b) (g : Str) :
    (b ++ '\n' :: g).takeWhile (· ≠ '\n') = b := by
  induction b with
  | nil => simp
  | cons c b ih =>
    simp only [List.mem_cons, not_or] at h
    have hc : c ≠ '\n' := fun e => h.1 e.symm
    simp only [List.cons_append, List.takeWhile_cons]
    rw [if_pos (by simp [hc]), ih h.2]

theorem takeWhile_last {b : Str} (h : '\n' ∉ b) : b.takeWhile (· ≠ '\n') = b := by
  induction b with
  | nil => simp
  | cons c b ih =>
    simp only [List.mem_cons, not_or] at h
    have hc : c ≠ '\n' := fun e => h.1 e.symm
    simp only [List.takeWhile_cons]
    rw [if_pos (by simp [hc]), ih h.2]

theorem commentPiece_line {b : Str} (h : '\n' ∉ b) (g : Str) :
    (commentPiece ('/' :: '/' :: (b ++ '\n' :: g))).2 = ('/' :: '/' :: (b ++ ['\n']), none) := by
  have h1 := takeWhile_line h g
  have h2 : lineEnd (b ++ '\n' :: g) = ['\n'] := by
    unfold lineEnd
    have : (b ++ '\n' :: g).dropWhile (· ≠ '\n') = '\n' :: g := by
      have := List.takeWhile_append_dropWhile (p := (· ≠ '\n')) (l := b ++ '\n' :: g)
      rw [h1] at this
      exact List.append_cancel_left this
    simp_all
  simp only [commentPiece, List.tail_cons, hd_cons, if_true, h1, h2]
  simp

theorem commentPiece_last {b : Str} (h : '\n' ∉ b) :
    (commentPiece ('/' :: '/' :: b)).2 = ('/' :: '/' :: b, none) := by
  have h1 := takeWhile_last h
  have h2 : lineEnd b = [] := by
    unfold lineEnd
    have : b.dropWhile (· ≠ '\n') = [] := by
      have := List.takeWhile_append_dropWhile (p := (· ≠ '\n')) (l := b)
      rw [h1] at this
      simpa using this
    rw [this]
  simp only [commentPiece, List.tail_cons, hd_cons, if_true, h1, h2]
  simp

/-- The part of a text up to the first newline. -/
theorem line_cases (r : Str) : '\n' ∉ r ∨ ∃ b g, r = b ++ '\n' :: g ∧ '\n' ∉ b := by
  induction r with
  | nil => exact .inl (by simp)
  | cons c r ih =>
    by_cases hc : c = '\n'
    · exact .inr ⟨[], r, by simp [hc], by simp⟩
    · have hc' : ¬ '\n' = c := fun e => hc e.symm
      rcases ih with h | ⟨b, g, rfl, h⟩
      · exact .inl (by simp [h, hc'])
      · exact .inr ⟨c :: b, g, rfl, by simp [h, hc']⟩

/-! ## Reading behind gaps -/

theorem lex_lineGap {m : Mode} (hm : m.comment = false) {g : Str} (h : LineGap g) (s : Str) :
    (lex m (g ++ s)).token = (lex m s).token ∧ (lex m (g ++ s)).raw = g ++ (lex m s).raw := by
  induction h with
  | nil => exact ⟨rfl, rfl⟩
  | space c g hc _ ih =>
    rw [List.cons_append, lex_space hc]
    exact ⟨ih.1, by rw [LexOut.push_raw, ih.2]; simp⟩
  | line b g hb _ ih =>
    have e := commentPiece_line hb (g ++ s)
    have e' : '/' :: '/' :: (b ++ '\n' :: g) ++ s = '/' :: '/' :: (b ++ '\n' :: (g ++ s)) := by simp
    rw [e', lex_comment_skip (by rw [e]) hm, e]
    have : ('/' :: '/' :: (b ++ '\n' :: (g ++ s))).drop ('/' :: '/' :: (b ++ ['\n'])).length = g ++ s := by
      have : '/' :: '/' :: (b ++ '\n' :: (g ++ s)) = '/' :: '/' :: (b ++ ['\n']) ++ (g ++ s) := by simp
      rw [this, List.drop_left]
    simp only [this]
    refine ⟨ih.1, ?_⟩
    show ((lex m (g ++ s)).push _).raw = _
    rw [LexOut.push_raw, ih.2]
    simp

theorem keyword_not_semicolon (w : Str) : asKeywordToken w ≠ .semicolon := by
  have key : ∀ kv ∈ keywordTable, kv.2 ≠ Token.semicolon := by decide
  unfold asKeywordToken
  split
  · next kv h => exact key kv (List.mem_of_find?_eq_some h)
  · simp

theorem tokenAt_semicolon {m : Mode} {c : Char} {r : Str} (h : (tokenAt m (c :: r)).token = .semicolon) : c = ';' := by
  unfold tokenAt at h
  simp only [hd_cons, List.tail_cons, reduceCtorEq, if_false] at h
  split at h
  · exfalso
    revert h
    show wordToken m _ = .semicolon → _
    unfold wordToken
    repeat' split
    all_goals simp [keyword_not_semicolon]
  · split at h
    · exfalso
      revert h
      unfold LexOut.ofPiece
      split <;> simp
    · split at h
      · next h1 =>
        exfalso
        revert h
        unfold LexOut.ofPiece
        split
        · next h2 =>
          rcases numPiece_sound (t := c :: r) (by exact h1.1) h2 with h | h <;> simp [h.1]
        · simp
      · have h : asMiscToken c = .semicolon := h
        rcases asMiscToken_cases c with h1 | h1 | h1
        · rw [h] at h1; simpa [punctuation] using h1.symm
        · rw [h] at h1; simp at h1
        · simp_all

theorem tokenAt_semi (m : Mode) (r : Str) : tokenAt m (';' :: r) =
    { body := [';'], token := .semicolon, text := [';'] } := by
  unfold tokenAt
  have h1 : ¬ (isLetter ';' ∨ (';' : Char) = '_') := by decide
  have h2 : ¬ (isQuote ';') := by decide
  have h3 : ¬ (isDecimalDigit ';' ∨ (';' : Char) = '.') := by decide
  simp only [hd_cons, reduceCtorEq, if_false, h1, h2, h3, false_and]
  rfl

theorem lex_firmHead {m : Mode} {y : Str} (h : FirmHead y) :
    (lex m y).token ≠ .semicolon ∧ FirmHead (lex m y).raw := by
  obtain ⟨c, r, rfl, h1, h2, h3⟩ := h
  by_cases hc : c = '/'
  · subst hc
    obtain ⟨d, r', rfl, h4, h5⟩ := h3 rfl
    have e : (commentPiece ('/' :: d :: r')).2 = (['/', d], some ("/ or *", d)) := by
      simp only [commentPiece, List.tail_cons, hd_cons, h4, h5, if_false]
      simp
    rw [lex_comment_err (by rw [e]), e]
    exact ⟨by simp, '/', [d], rfl, h1, h2, fun _ => ⟨d, [], rfl, h4, h5⟩⟩
  · rw [lex_token (by simpa using h1) (by simpa using hc)]
    refine ⟨fun h => h2 (tokenAt_semicolon h), ?_⟩
    obtain ⟨a, x, h4, h5⟩ := tokenAt_prefix m c r
    exact ⟨c, a, by simp only [LexOut.raw, tokenAt_gap, h4, List.nil_append], h1, h2, fun h => absurd h hc⟩

theorem FirmHead.append {y : Str} (h : FirmHead y) (s : Str) : FirmHead (y ++ s) := by
  obtain ⟨c, r, rfl, h1, h2, h3⟩ := h
  refine ⟨c, r ++ s, rfl, h1, h2, fun hc => ?_⟩
  obtain ⟨d, r', rfl, h4⟩ := h3 hc
  exact ⟨d, r' ++ s, rfl, h4⟩

theorem lex_firm {m : Mode} (hm : m.comment = false) {t : Str} (h : Firm t) (s : Str) :
    (lex m (t ++ s)).token ≠ .semicolon ∧ Firm (lex m (t ++ s)).raw := by
  obtain ⟨g, y, h1, rfl, h2⟩ := h
  have h3 := lex_lineGap hm h1 (y ++ s)
  have h4 := lex_firmHead (m := m) (h2.append s)
  rw [List.append_assoc]
  exact ⟨by rw [h3.1]; exact h4.1, g, _, h1, h3.2, h4.2⟩

theorem lex_barren {m : Mode} (hm : m.comment = false) {t : Str} (h : Barren t) :
    (lex m t).token ≠ .semicolon ∧ (lex m t).raw = t := by
  induction h with
  | nil => rw [lex_token (by decide) (by decide)]; exact ⟨by simp [tokenAt], by simp [tokenAt, LexOut.raw]⟩
  | space c g hc _ ih =>
    rw [lex_space hc]
    exact ⟨ih.1, by rw [LexOut.push_raw, ih.2]; simp⟩
  | line b g hb _ ih =>
    have h := lex_lineGap hm (.line b [] hb .nil) g
    simp only [List.cons_append, List.append_assoc, List.nil_append] at h
    exact ⟨by rw [h.1]; exact ih.1, by rw [h.2, ih.2]⟩
  | last b hb =>
    have e := commentPiece_last hb
    rw [lex_comment_skip (by rw [e]) hm, e]
    simp only [List.drop_length]
    have e2 : lex m [] = { token := .eof } := by rw [lex_token (by decide) (by decide)]; simp [tokenAt]
    refine ⟨?_, ?_⟩
    · show (lex m []).token ≠ _
      rw [e2]; simp
    · show ((lex m []).push _).raw = _
      rw [LexOut.push_raw, e2]
      simp [LexOut.raw]
  | slash =>
    have e : (commentPiece ['/']).2 = (['/'], some ("/ or *", eof)) := by decide
    rw [lex_comment_err (by rw [e]), e]
    exact ⟨by simp, rfl⟩

/-! ## Joining texts -/

theorem barren_after {p q : Str} (hp : '\n' ∉ p) {t : Str} (h : Barren t) (e : t = p ++ '\n' :: q) : Barren q := by
  induction h generalizing p with
  | nil => simp at e
  | space c g hc h ih =>
    cases p with
    | nil => simp at e; exact e.2 ▸ h
    | cons d p => simp at e hp; exact ih hp.2 e.2
  | line b g hb h ih =>
    cases p with
    | nil => simp at e
    | cons d p =>
      cases p with
      | nil => simp at e
      | cons d' p =>
        simp at e hp
        obtain ⟨-, -, e⟩ := e
        have h1 := takeWhile_line hb g
        rw [e, takeWhile_line hp.2.2] at h1
        subst h1
        simp at e
        exact e ▸ h
  | last b hb =>
    exfalso
    cases p with
    | nil => simp at e
    | cons d p =>
      cases p with
      | nil => simp at e
      | cons d' p => simp at e; exact hb (by rw [e.2.2]; simp)
  | slash =>
    cases p with
    | nil => simp at e
    | cons d p => simp at e

/-- A text behind `//`. -/
theorem barren_line {b : Str} (h : ∀ p q, '\n' ∉ p → b = p ++ '\n' :: q → Barren q) : Barren ('/' :: '/' :: b) := by
  rcases line_cases b with hb | ⟨p, q, rfl, hp⟩
  · exact .last b hb
  · exact .line p q hp (h p q hp rfl)

theorem not_mem_append {p q : Str} (h1 : '\n' ∉ p) (h2 : '\n' ∉ q) : '\n' ∉ p ++ q := by
  simp [h1, h2]

theorem barren_append {a b : Str} (ha : Barren a) (hb : Barren b) :
    Barren (a ++ b) ∨ ∃ g y, LineGap g ∧ a ++ b = g ++ y ∧ FirmHead y := by
  induction ha with
  | nil => exact .inl hb
  | space c g hc _ ih =>
    rcases ih with h | ⟨g', y, h1, h2, h3⟩
    · exact .inl (.space c _ hc h)
    · exact .inr ⟨c :: g', y, .space c g' hc h1, by simp [h2], h3⟩
  | line l g hl _ ih =>
    rcases ih with h | ⟨g', y, h1, h2, h3⟩
    · exact .inl (by simpa using Barren.line l _ hl h)
    · exact .inr ⟨_, y, .line l g' hl h1, by simp [h2], h3⟩
  | last l hl =>
    refine .inl (barren_line (b := l ++ b) fun p q hp e => ?_)
    rcases line_cases b with h | ⟨p', q', rfl, hp'⟩
    · exact absurd (by rw [e]; simp) (not_mem_append hl h)
    · have e' : (l ++ p') ++ '\n' :: q' = p ++ '\n' :: q := by simpa using e
      have := takeWhile_line (not_mem_append hl hp') q'
      rw [e', takeWhile_line hp] at this
      subst this
      simp at e
      exact e ▸ barren_after hp' hb rfl
  | slash =>
    cases b with
    | nil => exact .inl .slash
    | cons c b =>
      by_cases hc : c = '/'
      · subst hc
        exact .inl (barren_line fun p q hp e =>
          barren_after (p := '/' :: p) (by simp [hp]) hb (by rw [e]; rfl))
      · refine .inr ⟨[], _, .nil, rfl, '/', c :: b, rfl, by decide, by decide, fun _ => ⟨c, b, rfl, hc, ?_⟩⟩
        rintro rfl
        cases hb with
        | space _ _ h => exact absurd h (by decide)

theorem lineGap_barren {g t : Str} (hg : LineGap g) (ht : Barren t) : Barren (g ++ t) := by
  induction hg with
  | nil => exact ht
  | space c g hc _ ih => exact .space c _ hc ih
  | line b g hb _ ih => simpa using Barren.line b _ hb ih

theorem LineGap.append {g h : Str} (hg : LineGap g) (hh : LineGap h) : LineGap (g ++ h) := by
  induction hg with
  | nil => exact hh
  | space c g hc _ ih => exact .space c _ hc ih
  | line b g hb _ ih => simpa using LineGap.line b _ hb ih

theorem Firm.gap {g t : Str} (hg : LineGap g) (h : Firm t) : Firm (g ++ t) := by
  obtain ⟨g', y, h1, rfl, h2⟩ := h
  exact ⟨g ++ g', y, hg.append h1, by simp, h2⟩

/-! ## What is read from a text without block comments -/

inductive Read (m : Mode) (u : Str) : Prop
  /-- a semicolon -/
  | semi (g : Str) : LineGap g → (lex m u).raw = g ++ [';'] → (lex m u).token = .semicolon → Read m u
  /-- another token, or a wrong comment -/
  | firm : Firm (lex m u).raw → (lex m u).token ≠ .semicolon → Read m u
  /-- nothing is left -/
  | barren : (lex m u).raw = u → Barren u → (lex m u).token ≠ .semicolon → Read m u
  /-- a comment -/
  | comment : m.comment = true → LineGap (lex m u).raw → Read m u

theorem Read.gap {m : Mode} {g u : Str} (hg : LineGap g) (h1 : (lex m (g ++ u)).token = (lex m u).token)
    (h2 : (lex m (g ++ u)).raw = g ++ (lex m u).raw) (h : Read m u) : Read m (g ++ u) := by
  cases h with
  | semi g' k1 k2 k3 => exact .semi (g ++ g') (hg.append k1) (by rw [h2, k2]; simp) (h1.trans k3)
  | firm k1 k2 => exact .firm (by rw [h2]; exact k1.gap hg) (by rw [h1]; exact k2)
  | barren k1 k2 k3 => exact .barren (by rw [h2, k1]) (lineGap_barren hg k2) (by rw [h1]; exact k3)
  | comment k1 k2 => exact .comment k1 (by rw [h2]; exact hg.append k2)

theorem read_cases (m : Mode) : ∀ (n : Nat) {u : Str}, u.length < n → NoBlock u → Read m u := by
  intro n
  induction n with
  | zero => intro u h; omega
  | succ n ih =>
    intro u hn hb
    cases u with
    | nil =>
      have e : lex m [] = { token := .eof } := by rw [lex_token (by decide) (by decide)]; simp [tokenAt]
      exact .barren (by rw [e]; rfl) .nil (by rw [e]; simp)
    | cons c r =>
      simp only [List.length_cons] at hn
      by_cases hs : isSpace c = true
      · have e := lex_space (m := m) (r := r) hs
        exact Read.gap (g := [c]) (.space c [] hs .nil) (by simp [e]) (by simp [e]) (ih (by omega) hb.tail)
      simp only [Bool.not_eq_true] at hs
      by_cases hc : c = '/'
      · subst hc
        cases r with
        | nil =>
          have e : (commentPiece ['/']).2 = (['/'], some ("/ or *", eof)) := by decide
          have e2 := lex_comment_err (m := m) (r := []) (by rw [e])
          rw [e] at e2
          exact .barren (by rw [e2]; rfl) .slash (by rw [e2]; simp)
        | cons d r =>
          by_cases hd1 : d = '/'
          · subst hd1
            rcases line_cases r with h | ⟨b, g, rfl, h⟩
            · cases hm : m.comment with
              | false =>
                have := lex_barren hm (.last r h)
                exact .barren this.2 (.last r h) this.1
              | true =>
                have e := commentPiece_last h
                have e2 := lex_comment_tok (m := m) (r := '/' :: r) (by rw [e]) hm
                rw [e] at e2
                exact .barren (by rw [e2]; rfl) (.last r h) (by rw [e2]; simp)
            · cases hm : m.comment with
              | false =>
                have hg : LineGap ('/' :: '/' :: (b ++ ['\n'])) := .line b [] h .nil
                have := lex_lineGap hm hg g
                have e : '/' :: '/' :: (b ++ '\n' :: g) = '/' :: '/' :: (b ++ ['\n']) ++ g := by simp
                rw [e]
                refine Read.gap hg this.1 this.2 (ih ?_ (hb.suffix ⟨_, e.symm⟩))
                simp at hn
                omega
              | true =>
                have e := commentPiece_line h g
                have e2 := lex_comment_tok (m := m) (r := '/' :: (b ++ '\n' :: g)) (by rw [e]) hm
                rw [e] at e2
                exact .comment hm (by rw [e2]; exact .line b [] h .nil)
          · have hd2 : d ≠ '*' := by
              rintro rfl
              exact hb ⟨[], r, rfl⟩
            have h := lex_firmHead (m := m) (y := '/' :: d :: r)
              ⟨'/', d :: r, rfl, by decide, by decide, fun _ => ⟨d, r, rfl, hd1, hd2⟩⟩
            exact .firm ⟨[], _, .nil, rfl, h.2⟩ h.1
      · by_cases hc' : c = ';'
        · subst hc'
          have e : lex m (';' :: r) = _ := (lex_token (by rw [hd_cons]; decide) (by rw [hd_cons]; decide)).trans (tokenAt_semi m r)
          exact .semi [] .nil (by rw [e]; rfl) (by rw [e])
        · have h := lex_firmHead (m := m) (y := c :: r) ⟨c, r, rfl, hs, hc', fun h => absurd h hc⟩
          exact .firm ⟨[], _, .nil, rfl, h.2⟩ h.1

theorem read_of {m : Mode} {u : Str} (h : NoBlock u) : Read m u := read_cases m _ (Nat.lt_succ_self _) h

/-! ## Putting back twice -/

/-- Once dead, always dead. -/
theorem Dead.again {raw inp : Str} (h : Dead raw inp) :
    (lex {} (raw ++ inp)).token ≠ .semicolon ∧ Dead (lex {} (raw ++ inp)).raw (raw ++ inp) := by
  rcases h with h | ⟨rfl, h⟩
  · have := lex_firm (m := {}) rfl h inp
    exact ⟨this.1, .inl this.2⟩
  · rcases barren_append h h with k | ⟨g, y, k1, k2, k3⟩
    · have := lex_barren (m := {}) rfl k
      exact ⟨this.1, .inr ⟨this.2, k⟩⟩
    · have := lex_firm (m := {}) rfl ⟨g, y, k1, k2, k3⟩ []
      rw [List.append_nil] at this
      exact ⟨this.1, .inl this.2⟩

/-- A token was put back and is put back again: the text behind the semicolon that is read then is the end of the
original text, or there is no semicolon. -/
theorem twice {m : Mode} {u : Str} (h : NoBlock u) :
    ((lex {} ((lex m u).raw ++ u)).token = .semicolon ∧
      ((lex m u).raw ++ u).drop (lex {} ((lex m u).raw ++ u)).raw.length <:+ u) ∨
    ((lex {} ((lex m u).raw ++ u)).token ≠ .semicolon ∧
      Dead (lex {} ((lex m u).raw ++ u)).raw ((lex m u).raw ++ u)) := by
  cases read_of (m := m) h with
  | semi g k1 k2 k3 =>
    refine .inl ?_
    have k4 := lex_lineGap (m := {}) rfl k1 (';' :: u)
    have e : lex {} (';' :: u) = _ := (lex_token (by rw [hd_cons]; decide) (by rw [hd_cons]; decide)).trans (tokenAt_semi {} u)
    have e2 : (lex m u).raw ++ u = g ++ ';' :: u := by rw [k2]; simp
    rw [e2, k4.1, k4.2, e]
    refine ⟨rfl, ?_⟩
    have : g ++ ';' :: u = g ++ [';'] ++ u := by simp
    rw [this]
    simp only [LexOut.raw, List.nil_append]
    rw [List.drop_left]
    exact List.suffix_rfl
  | firm k1 k2 => exact .inr (Dead.again (.inl k1))
  | barren k1 k2 k3 => exact .inr (Dead.again (.inr ⟨k1, k2⟩))
  | comment k1 k2 =>
    have hr := drop_raw m u
    generalize (lex m u).raw = X at *
    generalize hR : u.drop X.length = R at *
    subst hr
    have hR' : NoBlock R := h.suffix ⟨_, rfl⟩
    have k3 := lex_lineGap (m := {}) rfl (k2.append k2) R
    rw [List.append_assoc] at k3
    rw [k3.1, k3.2]
    by_cases h5 : (lex {} R).token = .semicolon
    · refine .inl ⟨h5, ?_⟩
      have e : X ++ (X ++ R) = X ++ X ++ R := by simp
      rw [e, List.length_append, ← List.drop_drop, List.drop_left]
      exact (List.drop_suffix _ _).trans (List.suffix_append _ _)
    · refine .inr ⟨h5, ?_⟩
      cases read_of (m := {}) hR' with
      | semi g j1 j2 j3 => exact absurd j3 h5
      | firm j1 j2 => exact .inl (j1.gap (k2.append k2))
      | barren j1 j2 j3 =>
        refine .inr ⟨by rw [j1]; simp, ?_⟩
        simpa using lineGap_barren (k2.append k2) j2
      | comment j1 _ => cases j1

end Scanner
end Verif
