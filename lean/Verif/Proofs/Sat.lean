import Verif.Proofs.Stream

/-!
# Reasoning about runs of the lexer and parser

`Sat H Q E r`: the result `r` is a normal return satisfying `Q`, an error return satisfying `E`, or a
halt satisfying `H`.  `Took l ts l'`: between the states `l` and `l'` exactly the tokens `ts` were
consumed.
-/

set_option backward.isDefEq.respectTransparency false
set_option backward.dsimp.instances true

namespace Verif
open Spec Scanner Lexer

/-! ## Outcomes -/

def Sat {α : Type} (H : Halt → Prop) (Q : α → Lexer → Prop) (E : Err → Lexer → Prop) :
    Res Lexer Err α → Prop
  | .ok a l => Q a l
  | .err e l => E e l
  | .halt h => H h

section
variable {α β : Type} {H : Halt → Prop} {Q : α → Lexer → Prop} {E : Err → Lexer → Prop}

theorem Sat.mono {Q' : α → Lexer → Prop} {E' : Err → Lexer → Prop} {r : Res Lexer Err α}
    (h : Sat H Q E r) (hq : ∀ a l, Q a l → Q' a l) (he : ∀ e l, E e l → E' e l) : Sat H Q' E' r := by
  cases r with
  | ok a l => exact hq a l h
  | err e l => exact he e l h
  | halt k => exact h

theorem Sat.weaken {H' : Halt → Prop} {r : Res Lexer Err α}
    (h : Sat H Q E r) (hh : ∀ k, H k → H' k) : Sat H' Q E r := by
  cases r with
  | ok a l => exact h
  | err e l => exact h
  | halt k => exact hh k h

/-- Without halts. -/
def NoHalt : Halt → Prop := fun _ => False

theorem Sat.any {r : Res Lexer Err α} (h : Sat NoHalt Q E r) : Sat H Q E r :=
  h.weaken (fun _ h => h.elim)

theorem Sat.bind {Q' : β → Lexer → Prop} {m : P α} {f : α → P β} {l : Lexer} (h : Sat H Q E (m l))
    (hf : ∀ a l', Q a l' → Sat H Q' E (f a l')) : Sat H Q' E ((m >>= f) l) := by
  show Sat H Q' E (M.bind m f l)
  unfold M.bind
  cases hr : m l with
  | ok a l' => rw [hr] at h; exact hf a l' h
  | err e l' => rw [hr] at h; exact h
  | halt k => rw [hr] at h; exact h

/-- Sequencing where the error conditions differ. -/
theorem Sat.bind' {E' : Err → Lexer → Prop} {Q' : β → Lexer → Prop} {m : P α} {f : α → P β} {l : Lexer}
    (h : Sat H Q E (m l)) (he : ∀ e l', E e l' → E' e l')
    (hf : ∀ a l', Q a l' → Sat H Q' E' (f a l')) : Sat H Q' E' ((m >>= f) l) :=
  (h.mono (fun _ _ h => h) he).bind hf

theorem Sat.attempt {Q' : Except Err α → Lexer → Prop} {m : P α} {l : Lexer} (h : Sat H Q E (m l))
    (hq : ∀ a l', Q a l' → Q' (.ok a) l') (he : ∀ e l', E e l' → Q' (.error e) l')
    {E' : Err → Lexer → Prop} : Sat H Q' E' (M.attempt m l) := by
  unfold M.attempt
  cases hr : m l with
  | ok a l' => rw [hr] at h; exact hq a l' h
  | err e l' => rw [hr] at h; exact he e l' h
  | halt k => rw [hr] at h; exact h

theorem sat_pure {a : α} {l : Lexer} : Sat H Q E ((Pure.pure a : P α) l) ↔ Q a l := Iff.rfl
theorem sat_throw {e : Err} {l : Lexer} : Sat H Q E ((M.throw e : P α) l) ↔ E e l := Iff.rfl
theorem sat_tok {f : Token → P α} {l : Lexer} :
    Sat H Q E ((tok >>= f) l) ↔ Sat H Q E (f l.token l) := Iff.rfl
theorem sat_txt {f : Str → P α} {l : Lexer} :
    Sat H Q E ((txt >>= f) l) ↔ Sat H Q E (f l.text l) := Iff.rfl
theorem sat_position {f : SPos → P α} {l : Lexer} :
    Sat H Q E ((position >>= f) l) ↔ Sat H Q E (f l.pos l) := Iff.rfl
theorem sat_bound {f : Nat → P α} {l : Lexer} :
    Sat H Q E ((Lexer.bound >>= f) l) ↔ Sat H Q E (f (l.scanner.inp.length + 1) l) := Iff.rfl
theorem sat_rawText {f : Str → P α} {l : Lexer} :
    Sat H Q E ((Parser.rawText >>= f) l) ↔ Sat H Q E (f l.rawText l) := Iff.rfl
theorem sat_get {f : Lexer → P α} {l : Lexer} :
    Sat H Q E ((M.get >>= f) l) ↔ Sat H Q E (f l l) := Iff.rfl
theorem sat_pure_bind {a : β} {f : β → P α} {l : Lexer} :
    Sat H Q E (((Pure.pure a : P β) >>= f) l) ↔ Sat H Q E (f a l) := Iff.rfl

theorem sat_ite {p : Prop} [Decidable p] {a b : P α} {l : Lexer}
    (h1 : p → Sat H Q E (a l)) (h2 : ¬ p → Sat H Q E (b l)) : Sat H Q E ((if p then a else b) l) := by
  by_cases h : p
  · simp only [h, if_true]; exact h1 h
  · simp only [h, if_false]; exact h2 h

end

/-! ## Layouts -/

theorem gap_append {com : Bool} {rest g1 g2 : Str} {cs1 cs2 : List (Str × Str)}
    (h1 : Gap com (g2 ++ rest) g1 cs1) (h2 : Gap com rest g2 cs2) :
    ∃ cs, Gap com rest (g1 ++ g2) cs := by
  induction h1 with
  | nil => exact ⟨_, h2⟩
  | space c g cs hc _ ih =>
    obtain ⟨cs, h⟩ := ih
    exact ⟨_, .space c _ _ hc h⟩
  | comment raw text g cs hm hc _ ih =>
    obtain ⟨cs, h⟩ := ih
    rw [List.append_assoc]
    exact ⟨_, .comment raw text _ _ hm (by simpa using hc) h⟩

theorem lay_gap {p : SPos} {rest g c : Str} {ts : List Tok} {cs : List (Str × Str)}
    (h1 : Gap true (c ++ rest) g cs) (h2 : Lay (p.advanceAll g) rest ts c) : Lay p rest ts (g ++ c) := by
  cases h2 with
  | nil g2 cs2 h =>
    obtain ⟨cs', h'⟩ := gap_append h1 h
    exact .nil _ _ h'
  | cons g2 cs2 w ts c h hw hn hx hl =>
    obtain ⟨cs', h'⟩ := gap_append (rest := w ++ (c ++ rest)) (by simpa using h1) h
    rw [← List.append_assoc, ← SPos.advanceAll_append]
    refine .cons _ _ _ _ _ h' hw hn hx ?_
    simpa using hl

theorem lay_append {p : SPos} {rest c1 c2 : Str} {ts1 ts2 : List Tok}
    (h1 : Lay p (c2 ++ rest) ts1 c1) (h2 : Lay (p.advanceAll c1) rest ts2 c2) :
    Lay p rest (ts1 ++ ts2) (c1 ++ c2) := by
  generalize hr : c2 ++ rest = r at h1
  induction h1 with
  | nil g cs h => subst hr; exact lay_gap h h2
  | cons g cs w ts c h hw hn hx _ ih =>
    subst hr
    have := ih (by simpa using h2) rfl
    simp only [List.append_assoc, List.cons_append]
    exact .cons _ _ _ _ _ (by simpa using h) hw (by simpa using hn) (by simpa using hx) this

/-- A layout without a gap at the end. -/
inductive LayE : SPos → Str → List Tok → Str → Prop
  | nil {p : SPos} {rest : Str} : LayE p rest [] []
  | cons {p : SPos} {rest : Str} (g : Str) (cs : List (Str × Str)) (w : Str) (ts : List Tok)
      (c : Str) : Gap true (w ++ (c ++ rest)) g cs → w ≠ [] → Solid (w ++ (c ++ rest)) →
      Sharp w (c ++ rest) →
      LayE (p.advanceAll (g ++ w)) rest ts c →
      LayE p rest (⟨w, (p.advanceAll g).p⟩ :: ts) (g ++ (w ++ c))

theorem layE_gap {p : SPos} {rest g c : Str} {ts : List Tok} {cs : List (Str × Str)} (hne : ts ≠ [])
    (h1 : Gap true (c ++ rest) g cs) (h2 : LayE (p.advanceAll g) rest ts c) : LayE p rest ts (g ++ c) := by
  cases h2 with
  | nil => exact absurd rfl hne
  | cons g2 cs2 w ts c h hw hn hx hl =>
    obtain ⟨cs', h'⟩ := gap_append (rest := w ++ (c ++ rest)) (by simpa using h1) h
    rw [← List.append_assoc, ← SPos.advanceAll_append]
    refine .cons _ _ _ _ _ h' hw hn hx ?_
    simpa using hl

theorem layE_append {p : SPos} {rest c1 c2 : Str} {ts1 ts2 : List Tok} (hn : ts2 ≠ [])
    (h1 : Lay p (c2 ++ rest) ts1 c1) (h2 : LayE (p.advanceAll c1) rest ts2 c2) :
    LayE p rest (ts1 ++ ts2) (c1 ++ c2) := by
  generalize hr : c2 ++ rest = r at h1
  induction h1 with
  | nil g cs h => subst hr; exact layE_gap hn h h2
  | cons g cs w ts c h hw hn hx _ ih =>
    subst hr
    have := ih (by simpa using h2) rfl
    simp only [List.append_assoc, List.cons_append]
    exact .cons _ _ _ _ _ (by simpa using h) hw (by simpa using hn) (by simpa using hx) this

/-- The size of the tokens is at most that of the layout. -/
theorem lay_length {p : SPos} {rest c : Str} {ts : List Tok} (h : Lay p rest ts c) :
    ts.length ≤ c.length := by
  induction h with
  | nil => simp
  | cons g cs w ts c h hw hn hx hl ih =>
    have : 0 < w.length := List.length_pos_iff.2 hw
    simp; omega

/-! ## States -/

/-- The states between calls of the lexer: no NUL, mode 0. -/
structure Good (l : Lexer) : Prop where
  inp : NulFree l.scanner.inp
  raw : NulFree l.scanner.raw
  mode : l.scanner.mode = {}

/-- The kinds of a token just read, as opposed to a token put back, a comment or the end. -/
def Real (t : Token) : Prop := t ≠ .illegal ∧ t ≠ .eof ∧ t ≠ .comment

/-- Exactly the tokens `ts` were consumed between `l` and `l'`; a token that was just read is the last
of them, and nothing is consumed behind it. -/
structure Took (l : Lexer) (ts : List Tok) (l' : Lexer) : Prop where
  good : Good l'
  cut : ∃ c, l.scanner.inp = c ++ l'.scanner.inp ∧ l'.scanner.pos = l.scanner.pos.advanceAll c ∧
    Lay l.scanner.pos l'.scanner.inp ts c ∧
    (Real l'.token → LayE l.scanner.pos l'.scanner.inp ts c ∧ (ts = [] → Real l.token))
  recs : Recs l ts l'

theorem Took.refl {l : Lexer} (h : Good l) : Took l [] l :=
  ⟨h, ⟨[], rfl, rfl, .nil _ _ .nil, fun h => ⟨.nil, fun _ => h⟩⟩, .refl l⟩

theorem Took.trans {l l1 l2 : Lexer} {ts1 ts2 : List Tok} (h1 : Took l ts1 l1) (h2 : Took l1 ts2 l2) :
    Took l (ts1 ++ ts2) l2 := by
  obtain ⟨g1, ⟨c1, i1, p1, y1, z1⟩, r1⟩ := h1
  obtain ⟨g2, ⟨c2, i2, p2, y2, z2⟩, r2⟩ := h2
  refine ⟨g2, ⟨c1 ++ c2, by rw [i1, i2]; simp, by rw [p2, p1]; simp, ?_, fun hr => ?_⟩, r1.trans r2⟩
  · rw [i2] at y1
    rw [p1] at y2
    exact lay_append y1 y2
  · obtain ⟨e2, n2⟩ := z2 hr
    by_cases hn : ts2 = []
    · subst hn
      cases e2
      obtain ⟨e1, n1⟩ := z1 (n2 rfl)
      simp only [List.nil_append] at i2
      rw [i2] at e1
      exact ⟨by simpa using e1, by simpa using n1⟩
    · rw [i2] at y1
      rw [p1] at e2
      exact ⟨layE_append hn y1 e2, fun h => absurd h (by simp [hn])⟩

theorem Took.suffix {l l' : Lexer} {ts : List Tok} (h : Took l ts l') :
    l'.scanner.inp <:+ l.scanner.inp := by
  obtain ⟨_, ⟨c, h, _⟩, _⟩ := h; exact ⟨c, h.symm⟩

theorem Took.length {l l' : Lexer} {ts : List Tok} (h : Took l ts l') :
    l'.scanner.inp.length + ts.length ≤ l.scanner.inp.length := by
  obtain ⟨_, ⟨c, h, _, hl, _⟩, _⟩ := h
  have := lay_length hl
  rw [h]; simp; omega

/-- Reading only depends on the cursor. -/
theorem Took.congr {l l' l'' : Lexer} {ts : List Tok} (h : Took l ts l') (hg : Good l'')
    (h1 : l''.scanner.inp = l'.scanner.inp) (h2 : l''.scanner.pos = l'.scanner.pos)
    (h3 : Real l''.token → Real l'.token) (h4 : ∀ K, Inv K l' → Inv K l'') : Took l ts l'' := by
  obtain ⟨_, ⟨c, i, p, y, z⟩, r⟩ := h
  exact ⟨hg, ⟨c, by rw [h1]; exact i, by rw [h2]; exact p, by rw [h1]; exact y,
    fun h => by rw [h1]; exact z (h3 h)⟩, r.congr h1 h2 h4⟩

theorem good_next {l : Lexer} (h : Good l) (m : Mode) : Good (nextSt m l) := by
  refine ⟨nulFree_after _ h.inp, ?_, h.mode⟩
  have := drop_raw m l.scanner.inp
  simp only [nextSt, after_raw]
  have h1 := h.inp
  rw [this] at h1
  exact h1.left

theorem good_putBack {l : Lexer} (h : Good l) (m : Mode) : Good (putBack m l) :=
  ⟨h.inp, (good_next h m).raw, h.mode⟩

theorem took_putBack {l : Lexer} (h : Good l) (m : Mode) : Took l [] (putBack m l) :=
  (Took.refl h).congr (good_putBack h m) rfl rfl (fun h => absurd rfl h.1) (fun _ h => h.putBack m)

/-- What a token of a kind looks like in a mode. -/
def Reads (m : Mode) (t : Token) (w : Str) : Prop :=
  match t with
  | .ident => Word w ∧ (m.keyword = true → ∀ t, spelling t ≠ some w) ∧
      (m.bool = true → w ≠ c!"true" ∧ w ≠ c!"false") ∧ (m.number = true → w ≠ c!"inf" ∧ w ≠ c!"nan")
  | .intLit => IntLit w
  | .floatLit => FloatLit w
  | .strLit => StrLit w
  | .boolLit => w = c!"true" ∨ w = c!"false"
  | .quote => w = c!"'" ∨ w = c!"\""
  | t => spelling t = some w ∨ ∃ c, punctuation t = some c ∧ w = [c]

theorem lexeme_reads {m : Mode} {rest raw text : Str} {t : Token} (h : Lexeme m rest raw t text)
    (h1 : t ≠ .eof) (h2 : t ≠ .illegal) (h3 : t ≠ .comment) :
    raw = text ∧ text ≠ [] ∧ Reads m t text := by
  cases h with
  | eof => exact absurd rfl h1
  | word w t hw hn hc =>
    refine ⟨rfl, by cases hw; simp, ?_⟩
    cases hc with
    | bool _ h => exact h
    | float _ h => rcases h with rfl | rfl; exact FloatLit.inf; exact FloatLit.nan
    | keyword _ _ hs => cases t <;> simp [spelling] at hs <;> simp [Reads, spelling, hs]
    | ident a b c =>
      refine ⟨hw, fun h t ht => c ⟨h, t, ht⟩, fun h => ?_, fun h => ?_⟩
      · exact ⟨fun h' => a ⟨h, .inl h'⟩, fun h' => a ⟨h, .inr h'⟩⟩
      · exact ⟨fun h' => b ⟨h, .inl h'⟩, fun h' => b ⟨h, .inr h'⟩⟩
  | str w _ h => exact ⟨rfl, by obtain ⟨q, b, _, _, rfl⟩ := h; simp, h⟩
  | int w _ h => exact ⟨rfl, by cases h <;> simp, h⟩
  | float w _ h =>
    refine ⟨rfl, ?_, h⟩
    cases h with
    | full d f e hd => simp
    | exp d e hd => simp [hd.1]
    | frac => simp
    | inf => simp
    | nan => simp
  | comment => exact absurd rfl h3
  | punct c t hp => refine ⟨rfl, by simp, ?_⟩; cases t <;> simp [punctuation] at hp <;> subst hp <;> simp [Reads, punctuation]
  | quote c _ h => exact ⟨rfl, by simp, by simpa [Reads] using h⟩
  | other => exact absurd rfl h2

theorem body_ne_nil {m : Mode} {t : Str} (h : (lex m t).token ≠ .eof) : (lex m t).body ≠ [] := by
  obtain ⟨g, cs, t', _, _, _, h1⟩ := lex_cases m t
  rcases h1 with ⟨_, h1⟩ | ⟨r, e, h4, _, h1⟩ | ⟨r, h4, _, _, h1⟩
  · rw [h1] at h ⊢
    simp only [LexOut.withGap] at h ⊢
    cases t' with
    | nil => simp [tokenAt] at h
    | cons c r =>
      obtain ⟨a, x, h5, _⟩ := tokenAt_prefix m c r
      rw [h5]; simp
  all_goals
    rw [h1]
    simp only [LexOut.withGap]
    obtain ⟨a, x, h5, _⟩ := commentPiece_prefix r
    rw [h4, h5]; simp

/-- What follows the gap is solid. -/
theorem lex_solid {m : Mode} (hm : m.comment = false) (t : Str) :
    ∃ g cs x, t = g ++ x ∧ Gap true x g cs ∧ (lex m t).gap = g ∧ Solid x := by
  obtain ⟨g, cs, t', h1, h2, h3, h⟩ := lex_cases m t
  rw [hm] at h2
  have hw : NotNext White t' := by
    rw [notNext_iff (by rw [white_iff]; decide), white_iff]; exact h3
  rcases h with ⟨h4, h⟩ | ⟨r, e, h4, h5, h⟩ | ⟨r, _, h5, _⟩
  · refine ⟨g, cs, t', h1, h2, by rw [h]; rfl, hw, ?_⟩
    intro raw text rest h6 h7
    apply h4
    rw [h6]
    cases h7 <;> rfl
  · refine ⟨g, cs, t', h1, h2, by rw [h]; rfl, hw, ?_⟩
    intro raw text rest h6 h7
    obtain ⟨y, hy⟩ : ∃ y, raw = '/' :: y := by cases h7 <;> exact ⟨_, rfl⟩
    obtain ⟨_, _, this⟩ := commentPiece_complete h7
    rw [← h6] at this
    rw [this] at h5
    simp at h5
  · rw [hm] at h5; simp at h5

theorem solid_gap {rest g : Str} {cs : List (Str × Str)} {com : Bool} (hs : Solid (g ++ rest))
    (h : Gap com rest g cs) : g = [] := by
  cases h with
  | nil => rfl
  | space c g cs hc => exact absurd hc (hs.1 c rfl)
  | comment raw text g cs _ hc => exact absurd hc (hs.2 raw text (g ++ rest) (by simp))

/-- Before a solid text the gap is the gap. -/
theorem lex_gap_eq {m : Mode} (hm : m.comment = false) {x g : Str} {cs : List (Str × Str)}
    (hg : Gap true x g cs) (hs : Solid x) : (lex m (g ++ x)).gap = g := by
  have := lex_gap (m := m) (rest := x) (g := g) (cs := cs) (by rw [hm]; exact hg)
  rw [this]
  obtain ⟨g', cs', x', h1, h2, h3, _⟩ := lex_solid hm x
  simp only [h3]
  rw [solid_gap (h1 ▸ hs) h2]; simp

theorem wordStart_not {c : Char} (h : WordStart c) : ¬ isSpace c = true ∧ c ≠ '/' := by
  have hc : c ∈ letters ++ ['_'] := by simpa [WordStart] using h
  have key : ∀ c ∈ letters ++ ['_'], ¬ isSpace c = true ∧ c ≠ '/' := by decide
  exact key c hc

theorem float_not_octal {w : Str} (h : FloatLit w) : ∃ c ∈ w, isOctalDigit c = false := by
  cases h with
  | full d f e => exact ⟨'.', by simp, by decide⟩
  | exp d e _ he =>
    cases he with
    | plain x _ hx => exact ⟨x, by simp, by rcases hx with rfl | rfl <;> decide⟩
    | signed x _ _ hx => exact ⟨x, by simp, by rcases hx with rfl | rfl <;> decide⟩
  | frac => exact ⟨'.', by simp, by decide⟩
  | inf => exact ⟨'i', by simp, by decide⟩
  | nan => exact ⟨'n', by simp, by decide⟩

/-- A number that is a float has no superfluous leading zero: after a zero the octal digits are read. -/
theorem numPiece_sharp {c : Char} {r : Str} (h : FloatLit (numPiece (c :: r)).2.1) :
    ¬ LeadingZero (numPiece (c :: r)).2.1 := by
  rintro ⟨d, w, h0, hd'⟩
  have hc : c = '0' := by
    obtain ⟨a, _, e, _⟩ := numPiece_prefix c r
    rw [h0] at e
    exact (List.cons.inj e).1.symm
  subst hc
  by_cases h1 : hd r = 'x' ∨ hd r = 'X'
  · have : d = hd r := by
      by_cases h2 : isHexDigit (hd r.tail) = true
      · simp [numPiece, h1, h2] at h0
        exact h0.1.symm
      · simp [numPiece, h1, h2] at h0
        exact h0.1.symm
    subst this
    rcases h1 with h1 | h1 <;> rw [h1] at hd' <;> revert hd' <;> decide
  by_cases h2 : hd r = '.'
  · simp [numPiece, h2, Piece.after] at h0
    rw [← h0.1] at hd'
    revert hd'
    decide
  by_cases h3 : isExp (hd r) = true
  · have h4 : d = hd r := by
      by_cases h5 : isSign (hd r.tail) = true
      · simp [numPiece, h1, h2, h3, Piece.after, expPiece, h5] at h0
        exact h0.1.symm
      · simp [numPiece, h1, h2, h3, Piece.after, expPiece, h5] at h0
        exact h0.1.symm
    rw [h4] at hd'
    rcases isExp_iff.1 h3 with h3 | h3 <;> rw [h3] at hd' <;> revert hd' <;> decide
  have e : (numPiece ('0' :: r)).2.1 = '0' :: r.takeWhile isOctalDigit := by simp [numPiece, h1, h2, h3]
  obtain ⟨x, h5, h6⟩ := float_not_octal h
  rw [e] at h5
  rcases List.mem_cons.1 h5 with rfl | h5
  · exact absurd h6 (by decide)
  · rw [List.all_eq_true.1 (List.all_takeWhile (p := isOctalDigit) (l := r)) x h5] at h6
    cases h6

/-- A token that is a float has no superfluous leading zero. -/
theorem lex_float_sharp {m : Mode} (hm : m.comment = false) {t : Str} (h : FloatLit (lex m t).body) :
    ¬ LeadingZero (lex m t).body := by
  obtain ⟨g, cs, t', h1, h2, h3, h4⟩ := lex_cases m t
  rcases h4 with ⟨h4, h5⟩ | ⟨r, e, h4, _, h5⟩ | ⟨r, _, h5, _⟩
  · rw [h5] at h ⊢
    simp only [LexOut.withGap] at h ⊢
    cases t' with
    | nil => rintro ⟨_, _, h, _⟩; simp [tokenAt] at h
    | cons c r =>
      obtain ⟨a, x, h6, _⟩ := tokenAt_prefix m c r
      rintro ⟨d, w, h7, h8⟩
      have h9 := h7
      rw [h6] at h9
      obtain ⟨rfl, rfl⟩ := List.cons.inj h9
      have a1 : (isLetter '0' || decide ('0' = '_')) = false := by decide +kernel
      have a2 : isQuote '0' = false := by decide
      simp only [tokenAt, hd_cons, List.tail_cons, reduceCtorEq, if_false] at h h7
      rw [if_neg (by simpa using a1), if_neg (by simp [a2])] at h h7
      split at h7
      · next hn =>
        rw [if_pos hn, ofPiece_body] at h
        rw [ofPiece_body] at h7
        exact numPiece_sharp h ⟨d, w, h7, h8⟩
      · simp at h7
  · rw [h5]
    simp only [LexOut.withGap]
    obtain ⟨a, x, h6, _⟩ := commentPiece_prefix r
    rw [h4, h6]
    rintro ⟨_, _, h, _⟩
    simp at h
  · rw [hm] at h5; simp at h5

/-- A token that is a word is maximal. -/
theorem lex_word_max {m : Mode} (hm : m.comment = false) {t : Str} (h : Word (lex m t).body) :
    NotNext WordChar (t.drop (lex m t).raw.length) := by
  obtain ⟨g, cs, t', h1, h2, h3, h4⟩ := lex_cases m t
  rcases h4 with ⟨h4, h5⟩ | ⟨r, e, h4, _, h5⟩ | ⟨r, _, h5, _⟩
  · rw [h5] at h
    rw [h5, LexOut.raw]
    simp only [LexOut.withGap] at h ⊢
    cases t' with
    | nil => simp [tokenAt] at h; cases h
    | cons c r =>
      obtain ⟨a, x, h6, _⟩ := tokenAt_prefix m c r
      rw [h6] at h
      cases h with
      | mk _ _ hc _ =>
        rw [tokenAt_word hc]
        rw [h1]
        rw [show g ++ c :: r = (g ++ c :: r.takeWhile isIdentChar) ++ r.dropWhile isIdentChar by simp,
          List.drop_left]
        exact fun d hd h => notNext_dropWhile isIdentChar r d hd (wordChar_iff.1 h)
  · rw [h5] at h
    simp only [LexOut.withGap] at h
    obtain ⟨a, x, h6, _⟩ := commentPiece_prefix r
    rw [h4, h6] at h
    cases h with
    | mk _ _ hc _ => exact absurd rfl (wordStart_not hc).2
  · rw [hm] at h5; simp at h5

/-- A word that is there is the next token. -/
theorem lex_word (m : Mode) {w rest : Str} (hw : Word w) (hr : NotNext WordChar rest) :
    lex m (w ++ rest) = { body := w, token := wordToken m w, text := w } := by
  cases hw with
  | mk c w hc hw =>
    obtain ⟨h1, h2⟩ := wordStart_not hc
    have e : (w ++ rest).takeWhile isIdentChar = w :=
      takeWhile_append_notNext (fun d hd => wordChar_iff.1 (hw d hd))
        (fun d hd h => hr d hd (wordChar_iff.2 h))
    rw [List.cons_append, lex_token (by simpa using h1) (by simpa using h2), tokenAt_word hc, e]

/-- The token that a call reads. -/
def nextTok (m : Mode) (l : Lexer) : Tok := ⟨(lex m l.scanner.inp).body, (nextSt m l).pos.p⟩

theorem nextTok_pos (m : Mode) (l : Lexer) : (nextTok m l).pos = (nextSt m l).pos.p := rfl

theorem next_ne_comment {l : Lexer} {m : Mode} (hm : m.comment = false) :
    (nextSt m l).token ≠ .comment := by
  intro h
  obtain ⟨g, cs, raw, rest, h1, h2, h3, h4, h5, hh⟩ := lex_lexeme m l.scanner.inp
  have ht' : (lex m l.scanner.inp).token = .comment := h
  rcases hh with ⟨_, hl, _⟩ | ⟨_, he, hxt, _⟩
  · rw [ht'] at hl
    generalize (lex m l.scanner.inp).text = x at hl
    have key : ∀ x, ¬ Lexeme m rest raw .comment x := by
      intro x hl
      cases hl with
      | word _ _ _ _ hc => cases hc; rename_i hs; simp [spelling] at hs
      | punct _ _ hp => simp [punctuation] at hp
      | comment _ _ hc => rw [hm] at hc; simp at hc
    exact key x hl
  · rw [ht'] at he; simp at he

/-- The comments of a gap as nodes. -/
theorem texts_node {m : Mode} {t : Str} {p : SPos} {cs : List (Str × Str)} (h : (lex m t).coms = cs) :
    ((lex m t).texts p).map Text.node = cs.map (fun q => Parser.mkComment q.2 (p.advanceAll q.1)) := by
  simp [LexOut.texts, h, Text.node, Function.comp_def]

/-- Reading a token. -/
theorem next_took {l : Lexer} (hg : Good l) {m : Mode} (hm : m.comment = false)
    (ht : (nextSt m l).token ≠ .eof) : Took l [nextTok m l] (nextSt m l) := by
  obtain ⟨g, cs, raw, rest, h1, h2, h3, h4, h5, h⟩ := lex_lexeme m l.scanner.inp
  have hb : raw ≠ [] := by rw [← h5]; exact body_ne_nil ht
  have hr : (lex m l.scanner.inp).raw = g ++ raw := by simp [LexOut.raw, h4, h5]
  have hi : (nextSt m l).scanner.inp = rest := by
    simp only [nextSt, after_inp, hr]
    rw [h1]; simp
  have hp : (nextSt m l).scanner.pos = l.scanner.pos.advanceAll (g ++ raw) := by
    simp only [nextSt, after_pos, hr]
  have hq : (nextSt m l).pos = l.scanner.pos.advanceAll g := by simp only [nextSt, h4]
  rw [hm] at h2
  simp only [Bool.not_false] at h2
  have hcs : (lex m l.scanner.inp).coms = cs := by
    rcases h with ⟨_, _, h⟩ | ⟨_, _, _, _, h⟩
    · have := next_ne_comment (l := l) hm
      have e : (lex m l.scanner.inp).token ≠ .comment := this
      rw [if_neg e] at h
      simpa using h
    · exact h
  have k1 : Sharp raw ([] ++ rest) := by
    refine ⟨fun hw => ?_, by rw [← h5]; exact lex_float_sharp hm⟩
    have := lex_word_max hm (by rw [h5]; exact hw)
    rw [hr, h1] at this
    simpa using this
  have k2 : Solid (raw ++ ([] ++ rest)) := by
    obtain ⟨g', _, x, e1, _, e2, e3⟩ := lex_solid hm l.scanner.inp
    rw [h4] at e2
    subst e2
    rw [e1] at h1
    rw [List.append_cancel_left h1] at e3
    simpa using e3
  refine ⟨good_next hg m, ⟨g ++ (raw ++ []), by rw [h1, hi]; simp, by rw [hp]; simp, ?_⟩, fun K hK =>
    ⟨_, g ++ (raw ++ []), _, by rw [h1, hi]; simp, by rw [hp]; simp,
      by
        rw [hi]
        exact flow_append (flow_gap (by simpa using h2) _) (Flow.tok raw [] [] hb k2 k1 .nil),
      by simp [toks_append, nextTok, hq, h5],
      by simpa [commentsIn_append] using texts_node hcs, hK.next m⟩⟩
  rw [nextTok, hq, hi, h5]
  exact ⟨.cons _ cs _ _ _ (by simpa using h2) hb k2 k1 (.nil _ _ .nil),
    fun _ => ⟨.cons _ cs _ _ _ (by simpa using h2) hb k2 k1 .nil, by simp⟩⟩

/-- Reading at the end. -/
theorem eof_took {l : Lexer} (hg : Good l) {m : Mode} (hm : m.comment = false)
    (ht : (nextSt m l).token = .eof) :
    Took l [] (nextSt m l) ∧ (nextSt m l).scanner.inp = [] ∧ (nextSt m l).text = [] := by
  obtain ⟨g, cs, raw, rest, h1, h2, h3, h4, h5, h⟩ := lex_lexeme m l.scanner.inp
  have hr : (lex m l.scanner.inp).raw = g ++ raw := by simp [LexOut.raw, h4, h5]
  have hi : (nextSt m l).scanner.inp = rest := by
    simp only [nextSt, after_inp, hr]
    rw [h1]; simp
  have hp : (nextSt m l).scanner.pos = l.scanner.pos.advanceAll (g ++ raw) := by
    simp only [nextSt, after_pos, hr]
  have ht' : (lex m l.scanner.inp).token = .eof := ht
  have hx : (nextSt m l).text = (lex m l.scanner.inp).text := rfl
  rw [hm] at h2
  simp only [Bool.not_false] at h2
  rcases h with ⟨_, hl, hc⟩ | ⟨_, he, hxt, _⟩
  · rw [ht', ← hx] at hl
    generalize (nextSt m l).text = x at hl
    have key : ∀ x, Lexeme m rest raw .eof x → x = [] ∧ raw = [] ∧ rest = [] := by
      intro x hl
      cases hl with
      | eof h => exact ⟨rfl, rfl, h⟩
      | word _ _ _ _ hc => cases hc; rename_i hs; simp [spelling] at hs
      | punct _ _ hp => simp [punctuation] at hp
    obtain ⟨h7, h8, h9⟩ := key x hl
    have hcs : (lex m l.scanner.inp).coms = cs := by
      rw [if_neg (by rw [ht']; simp)] at hc
      simpa using hc
    refine ⟨⟨good_next hg m, ⟨g, by rw [h1, h8, hi]; simp, by rw [hp, h8]; simp, ?_⟩, fun K hK =>
      ⟨_, g, _, by rw [h1, h8, hi]; simp, by rw [hp, h8]; simp,
        by
          rw [hi]
          exact flow_gap (by simpa [h8] using h2) _,
        by simp,
        by simpa [commentsIn_append] using texts_node hcs, hK.next m⟩⟩,
      by rw [hi, h9], h7⟩
    rw [hi]
    exact ⟨.nil _ cs (by simpa [h8] using h2), fun hr => absurd ht hr.2.1⟩
  · rw [ht'] at he; simp at he

/-- The text of a token is its spelling. -/
theorem next_text {l : Lexer} {m : Mode} (hm : m.comment = false) (h : (nextSt m l).text ≠ []) :
    (nextTok m l).text = (nextSt m l).text := by
  obtain ⟨g, cs, raw, rest, h1, h2, h3, h4, h5, hh⟩ := lex_lexeme m l.scanner.inp
  show (lex m l.scanner.inp).body = (lex m l.scanner.inp).text
  have h' : (lex m l.scanner.inp).text ≠ [] := h
  rw [h5]
  rcases hh with ⟨_, hl, _⟩ | ⟨_, _, hxt, _⟩
  · generalize (lex m l.scanner.inp).text = x at *
    generalize (lex m l.scanner.inp).token = t at *
    cases hl with
    | comment _ _ hc => rw [hm] at hc; simp at hc
    | _ => rfl
  · exact absurd hxt h'

/-- The text of a token of a given kind. -/
theorem next_reads {l : Lexer} {m : Mode} (hm : m.comment = false) {t : Token}
    (ht : (nextSt m l).token = t) (h1 : t ≠ .eof) (h2 : t ≠ .illegal) :
    (nextTok m l).text = (nextSt m l).text ∧ Reads m t (nextSt m l).text := by
  have h0 := next_ne_comment (l := l) hm
  rw [ht] at h0
  obtain ⟨g, cs, raw, rest, _, _, h3, h4, h5, hh⟩ := lex_lexeme m l.scanner.inp
  have ht' : (lex m l.scanner.inp).token = t := ht
  show (lex m l.scanner.inp).body = (lex m l.scanner.inp).text ∧ Reads m t (lex m l.scanner.inp).text
  rcases hh with ⟨_, hl, _⟩ | ⟨_, he, _⟩
  · rw [ht'] at hl
    obtain ⟨h6, _, h7⟩ := lexeme_reads hl h1 h2 h0
    exact ⟨by rw [h5, h6], h7⟩
  · exact absurd (ht'.symm.trans he) h2

/-- The first token consumed is where the next token is found. -/
theorem took_head {l l' : Lexer} {t : Tok} {ts : List Tok} (h : Took l (t :: ts) l') {m : Mode}
    (hm : m.comment = false) : t.pos = (nextSt m l).pos.p := by
  obtain ⟨_, ⟨c, h1, _, h2, _⟩, _⟩ := h
  generalize hts : t :: ts = us at h2
  cases h2 with
  | nil => simp at hts
  | cons g cs w ts' c' hg hw hs hx hl =>
    simp only [List.cons.injEq] at hts
    obtain ⟨rfl, rfl⟩ := hts
    simp only [nextSt]
    rw [h1]
    have := lex_gap_eq hm hg hs
    simp only [List.append_assoc]
    rw [this]

/-- If the first token consumed is a word, it is the next token in every mode. -/
theorem took_word {l l' : Lexer} {t : Tok} {ts : List Tok} (h : Took l (t :: ts) l') (hw : Word t.text)
    {m : Mode} (hm : m.comment = false) :
    (nextSt m l).token = wordToken m t.text ∧ (nextSt m l).text = t.text := by
  obtain ⟨_, ⟨c, h1, _, h2, _⟩, _⟩ := h
  generalize hts : t :: ts = us at h2
  cases h2 with
  | nil => simp at hts
  | cons g cs w ts' c' hg hw' hs hx hl =>
    simp only [List.cons.injEq] at hts
    obtain ⟨rfl, rfl⟩ := hts
    have h3 := lex_gap (m := m) (cs := cs) (by rw [hm]; exact hg)
    rw [lex_word m hw (hx.1 hw)] at h3
    have h4 : l.scanner.inp = g ++ (w ++ (c' ++ l'.scanner.inp)) := by rw [h1]; simp
    simp only [nextSt, h4, h3, and_self]

/-- A comment is read as a gap. -/
theorem nextComment_took {l : Lexer} (hg : Good l) (h : (nextSt .commentMode l).token = .comment) :
    Took l [] (nextSt .commentMode l) ∧
    ∃ g raw cs, l.scanner.inp = g ++ (raw ++ (nextSt .commentMode l).scanner.inp) ∧
      Gap false (raw ++ (nextSt .commentMode l).scanner.inp) g cs ∧
      Spec.Comment (nextSt .commentMode l).scanner.inp raw (nextSt .commentMode l).text ∧
      (nextSt .commentMode l).pos = l.scanner.pos.advanceAll g := by
  obtain ⟨g, cs, raw, rest, h1, h2, h3, h4, h5, hh⟩ := lex_lexeme .commentMode l.scanner.inp
  have hr : (lex .commentMode l.scanner.inp).raw = g ++ raw := by simp [LexOut.raw, h4, h5]
  have hi : (nextSt .commentMode l).scanner.inp = rest := by
    simp only [nextSt, after_inp, hr]
    rw [h1]; simp
  have hp : (nextSt .commentMode l).scanner.pos = l.scanner.pos.advanceAll (g ++ raw) := by
    simp only [nextSt, after_pos, hr]
  have hq : (nextSt .commentMode l).pos = l.scanner.pos.advanceAll g := by simp only [nextSt, h4]
  have ht : (nextSt .commentMode l).token = (lex .commentMode l.scanner.inp).token := rfl
  have hx : (nextSt .commentMode l).text = (lex .commentMode l.scanner.inp).text := rfl
  rcases hh with ⟨_, hl, hco⟩ | ⟨_, he, _⟩
  · rw [← ht, h, ← hx] at hl
    rw [if_pos (by rw [← ht, h]), ← hx] at hco
    have key : ∀ x, Lexeme .commentMode rest raw .comment x → Spec.Comment rest raw x := by
      intro x hl
      cases hl with
      | word _ _ _ _ hc => cases hc; rename_i hs; simp [spelling] at hs
      | punct _ _ hp => simp [punctuation] at hp
      | comment _ _ _ hc => exact hc
    have hc := key _ hl
    have hgf : ∀ {g : Str} {cs}, Gap false (raw ++ rest) g cs → cs = [] ∧ Gap true (raw ++ rest) g [] := by
      intro g cs hgap
      generalize hb : false = b at hgap
      induction hgap with
      | nil => exact ⟨rfl, .nil⟩
      | space c g cs hc _ ih =>
        obtain ⟨rfl, h'⟩ := ih
        exact ⟨rfl, by simpa using Gap.space (com := true) c g _ hc h'⟩
      | comment _ _ _ _ hm => simp [← hb] at hm
    have h2' : Gap false (raw ++ rest) g cs := h2
    obtain ⟨rfl, h6⟩ := hgf h2'
    refine ⟨⟨good_next hg _, ⟨g ++ raw, by rw [h1, hi]; simp, by rw [hp], ?_⟩, fun K hK =>
      ⟨_, g ++ (raw ++ []), _, by rw [h1, hi]; simp, by rw [hp]; simp,
        by
          rw [hi]
          exact flow_append (flow_gap (by simpa using h6) _)
            (Flow.com (p := l.scanner.pos.advanceAll g) raw _ [] [] (by simpa using hc) .nil),
        by simp,
        by
          rw [texts_node hco]
          simp,
        hK.next _⟩⟩, g, raw, [], ?_⟩
    · rw [hi]
      obtain ⟨cs'', h7⟩ := gap_append h6
        (by simpa using Gap.comment (com := true) (rest := rest) raw _ [] [] rfl (by simpa using hc) .nil)
      exact ⟨.nil _ _ h7, fun hr => absurd h hr.2.2⟩
    · rw [hi]; exact ⟨h1, h2', hc, hq⟩
  · rw [← ht, h] at he; simp at he

/-! ## Errors -/

/-- A position of the text that `l` is about to read. -/
def InText (l : Lexer) (p : Position) : Prop :=
  ∃ c r, l.scanner.inp = c ++ r ∧ p = (l.scanner.pos.advanceAll c).p

/-- The positions reported by an error are positions of the text.  With `sm` (strict mode) nothing is
said of the second part of an error that was reported after an attempt to recover. -/
inductive ErrAt (sm : Bool) (l : Lexer) : Err → Prop
  | single (p : Position) (s : String) (f : Found) : InText l p → ErrAt sm l (.single p s f)
  | pair (a b : Err) : ErrAt sm l a → ErrAt sm l b → ErrAt sm l (.pair a b)
  | first (a b : Err) : sm = true → ErrAt sm l a → ErrAt sm l (.pair a b)

/-- An error return from a run that started in `l`: some tokens were consumed. -/
structure Fail (sm : Bool) (l : Lexer) (e : Err) (l' : Lexer) : Prop where
  took : ∃ ts, Took l ts l'
  err : ErrAt sm l e
  tpos : InText l l'.pos.p

/-- The last token can be put back; or, in strict mode, it was put back already, but it is no
semicolon. -/
def Recov (sm : Bool) (l l' : Lexer) : Prop :=
  (∃ ts l2, unNext l' = .ok () l2 ∧ Took l ts l2) ∨
  (sm = true ∧ (lex {} (l'.scanner.raw ++ l'.scanner.inp)).token ≠ .semicolon)

/-- An error return from which recovery is possible. -/
structure FailR (sm : Bool) (l : Lexer) (e : Err) (l' : Lexer) : Prop extends Fail sm l e l' where
  recov : Recov sm l l'

section
variable {sm : Bool}

theorem InText.trans {l l1 : Lexer} {ts : List Tok} (h : Took l ts l1) {p : Position}
    (hp : InText l1 p) : InText l p := by
  obtain ⟨_, ⟨c, h1, h2, _⟩, _⟩ := h
  obtain ⟨d, r, h3, h4⟩ := hp
  exact ⟨c ++ d, r, by rw [h1, h3]; simp, by rw [h4, h2]; simp⟩

theorem ErrAt.trans {l l1 : Lexer} {ts : List Tok} (h : Took l ts l1) {e : Err} (he : ErrAt sm l1 e) :
    ErrAt sm l e := by
  induction he with
  | single p s f hp => exact .single p s f (hp.trans h)
  | pair a b _ _ iha ihb => exact .pair a b iha ihb
  | first a b hs _ iha => exact .first a b hs iha

theorem Fail.trans {l l1 l2 : Lexer} {ts : List Tok} (h : Took l ts l1) {e : Err}
    (hf : Fail sm l1 e l2) : Fail sm l e l2 := by
  obtain ⟨ts2, h2⟩ := hf.took
  exact ⟨⟨_, h.trans h2⟩, hf.err.trans h, hf.tpos.trans h⟩

theorem Recov.trans {l l1 l2 : Lexer} {ts : List Tok} (h : Took l ts l1) (hf : Recov sm l1 l2) :
    Recov sm l l2 := by
  rcases hf with ⟨ts2, l3, h1, h2⟩ | hf
  · exact .inl ⟨_, l3, h1, h.trans h2⟩
  · exact .inr hf

theorem FailR.trans {l l1 l2 : Lexer} {ts : List Tok} (h : Took l ts l1) {e : Err}
    (hf : FailR sm l1 e l2) : FailR sm l e l2 := ⟨hf.toFail.trans h, hf.recov.trans h⟩

theorem inText_here (l : Lexer) : InText l l.scanner.pos.p := ⟨[], l.scanner.inp, rfl, rfl⟩

theorem inText_next (l : Lexer) (m : Mode) : InText l (nextSt m l).pos.p := by
  refine ⟨(lex m l.scanner.inp).gap,
    (lex m l.scanner.inp).body ++ l.scanner.inp.drop (lex m l.scanner.inp).raw.length, ?_, rfl⟩
  have := drop_raw m l.scanner.inp
  rw [← List.append_assoc]
  exact this

theorem any_took {l : Lexer} (hg : Good l) {m : Mode} (hm : m.comment = false) :
    ∃ ts, Took l ts (nextSt m l) := by
  by_cases h : (nextSt m l).token = .eof
  · exact ⟨_, (eof_took hg hm h).1⟩
  · exact ⟨_, next_took hg hm h⟩

/-- The state after one token can be recovered from. -/
theorem recov_next {l : Lexer} (hg : Good l) (m : Mode) : Recov sm l (nextSt m l) :=
  .inl ⟨[], _, unNext_nextSt m l, took_putBack hg m⟩

theorem failR_next {l : Lexer} (hg : Good l) {m : Mode} (hm : m.comment = false) (s : String)
    (f : Found) : FailR sm l (.single (nextSt m l).pos.p s f) (nextSt m l) :=
  ⟨⟨any_took hg hm, .single _ _ _ (inText_next l m), inText_next l m⟩, recov_next hg m⟩

theorem fail_putBack {l : Lexer} (hg : Good l) (m : Mode) (s : String) (f : Found) :
    Fail sm l (.single l.scanner.pos.p s f) (putBack m l) :=
  ⟨⟨_, took_putBack hg m⟩, .single _ _ _ (inText_here l), inText_here l⟩

end

/-! ## Reading -/

section
variable {α : Type} {H : Halt → Prop} {Q : α → Lexer → Prop} {E : Err → Lexer → Prop}

theorem run_next {l : Lexer} (hg : Good l) : next l = .ok () (nextSt {} l) := by
  have := nextCur_eq hg.inp
  rw [hg.mode] at this
  exact this

theorem run_nextWith {l : Lexer} (hg : Good l) (m : Mode) : nextWith m l = .ok () (nextSt m l) :=
  nextWith_eq m hg.inp

/-- The ways of reading a token, with their modes. -/
inductive IsNext : P Unit → Mode → Prop
  | next : IsNext next {}
  | with_ (m : Mode) : IsNext (nextWith m) m

theorem IsNext.run {nx : P Unit} {m : Mode} (h : IsNext nx m) {l : Lexer} (hg : Good l) :
    nx l = .ok () (nextSt m l) := by
  cases h with
  | next => exact run_next hg
  | with_ => exact run_nextWith hg _

theorem sat_next {f : Unit → P α} {l : Lexer} (hg : Good l) (h : Sat H Q E (f () (nextSt {} l))) :
    Sat H Q E ((next >>= f) l) := by
  show Sat H Q E (M.bind next f l)
  unfold M.bind
  rw [run_next hg]
  exact h

theorem sat_nextWith {m : Mode} {f : Unit → P α} {l : Lexer} (hg : Good l)
    (h : Sat H Q E (f () (nextSt m l))) : Sat H Q E ((nextWith m >>= f) l) := by
  show Sat H Q E (M.bind (nextWith m) f l)
  unfold M.bind
  rw [run_nextWith hg]
  exact h

theorem sat_unNext {m : Mode} {f : Unit → P α} {l : Lexer} (h : Sat H Q E (f () (putBack m l))) :
    Sat H Q E ((unNext >>= f) (nextSt m l)) := by
  show Sat H Q E (M.bind unNext f (nextSt m l))
  unfold M.bind
  rw [unNext_nextSt]
  exact h

end

end Verif
