import Verif.Proofs.LexerFacts
import Verif.Spec.Layout
import Verif.Spec.Comments
import Verif.Model.Parser

/-!
# Streams of tokens and comments, and the comments that the scanner records

The scanner records every comment that it reads, also when the token behind it is put back and the
comment is read again; `GetScannedComments` removes the duplicates.  `Inv K l`: in the state `l` what it
returns are the comments `K`, which lie before the cursor, followed by a first part of the comments
that lie ahead of the cursor.
-/

set_option backward.isDefEq.respectTransparency false
set_option backward.dsimp.instances true

namespace Verif
open Spec Scanner Lexer

/-- `Flow p rest is c`: before the text `rest`, the text `c`, which starts at position `p`, consists of
the tokens and comments `is` and of white space. -/
inductive Flow : SPos → Str → List Item → Str → Prop
  | nil {p : SPos} {rest : Str} : Flow p rest [] []
  | space {p : SPos} {rest : Str} (ch : Char) (is : List Item) (c : Str) : White ch →
      Flow (p.advance ch) rest is c → Flow p rest is (ch :: c)
  | com {p : SPos} {rest : Str} (raw text : Str) (is : List Item) (c : Str) :
      Spec.Comment (c ++ rest) raw text → Flow (p.advanceAll raw) rest is c →
      Flow p rest (.com (Parser.mkComment text p) :: is) (raw ++ c)
  | tok {p : SPos} {rest : Str} (w : Str) (is : List Item) (c : Str) : w ≠ [] →
      Solid (w ++ (c ++ rest)) → Sharp w (c ++ rest) →
      Flow (p.advanceAll w) rest is c → Flow p rest (.tok ⟨w, p.p⟩ :: is) (w ++ c)

theorem toks_append (as bs : List Item) : toks (as ++ bs) = toks as ++ toks bs := by
  induction as with
  | nil => rfl
  | cons a as ih => cases a <;> simp [toks, ih]

@[simp] theorem toks_coms (cs : List Comment) : toks (coms cs) = [] := by
  induction cs with
  | nil => rfl
  | cons c cs ih => exact ih

@[simp] theorem toks_opt (o : Option Comment) : toks (opt o) = [] := toks_coms _
@[simp] theorem toks_nil : toks [] = [] := rfl
@[simp] theorem toks_tok (t : Tok) (is : List Item) : toks (.tok t :: is) = t :: toks is := rfl
@[simp] theorem toks_com (c : Comment) (is : List Item) : toks (.com c :: is) = toks is := rfl
@[simp] theorem opt_none : opt none = [] := rfl
@[simp] theorem opt_some (c : Comment) : opt (some c) = [.com c] := rfl
@[simp] theorem coms_nil : coms [] = [] := rfl
theorem coms_append (as bs : List Comment) : coms (as ++ bs) = coms as ++ coms bs := List.map_append

theorem flow_append {p : SPos} {rest c1 c2 : Str} {is1 is2 : List Item}
    (h1 : Flow p (c2 ++ rest) is1 c1) (h2 : Flow (p.advanceAll c1) rest is2 c2) :
    Flow p rest (is1 ++ is2) (c1 ++ c2) := by
  generalize hr : c2 ++ rest = r at h1
  induction h1 with
  | nil => exact h2
  | space ch is c hc _ ih => exact .space _ _ _ hc (ih h2 hr)
  | com raw text is c hc _ ih =>
    subst hr
    rw [List.append_assoc]
    exact .com _ _ _ _ (by simpa using hc) (ih (by rw [← SPos.advanceAll_append]; exact h2) rfl)
  | tok w is c hw hs hx _ ih =>
    subst hr
    rw [List.append_assoc]
    exact .tok _ _ _ hw (by simpa using hs) (by simpa using hx)
      (ih (by rw [← SPos.advanceAll_append]; exact h2) rfl)

/-- A gap is a stream of comments. -/
theorem flow_gap {rest g : Str} {gs : List (Str × Str)} (h : Gap true rest g gs) :
    ∀ p : SPos, Flow p rest (coms (gs.map (fun q => Parser.mkComment q.2 (p.advanceAll q.1)))) g := by
  induction h with
  | nil => exact fun _ => .nil
  | space c g cs hc _ ih =>
    intro p
    have := Flow.space (p := p) c _ _ hc (ih _)
    simpa [Function.comp_def, SPos.advanceAll] using this
  | comment raw text g cs _ hc _ ih =>
    intro p
    have := Flow.com (p := p) raw text _ _ hc (ih _)
    simpa [coms, Function.comp_def, SPos.advanceAll] using this


@[simp] theorem commentsIn_nil : commentsIn [] = [] := rfl
@[simp] theorem commentsIn_tok (t : Tok) (is : List Item) : commentsIn (.tok t :: is) = commentsIn is := rfl
@[simp] theorem commentsIn_com (c : Comment) (is : List Item) :
    commentsIn (.com c :: is) = c :: commentsIn is := rfl

theorem commentsIn_append (as bs : List Item) : commentsIn (as ++ bs) = commentsIn as ++ commentsIn bs := by
  induction as with
  | nil => rfl
  | cons a as ih => cases a <;> simp [ih]

@[simp] theorem commentsIn_coms (cs : List Comment) : commentsIn (coms cs) = cs := by
  induction cs with
  | nil => rfl
  | cons c cs ih => exact congrArg (c :: ·) ih

/-- A comment is determined by the text. -/
theorem comment_unique {raw raw' text text' x x' : Str} (h : Spec.Comment x raw text)
    (h' : Spec.Comment x' raw' text') (e : raw ++ x = raw' ++ x') : raw = raw' ∧ text = text' ∧ x = x' := by
  obtain ⟨_, _, h1⟩ := commentPiece_complete h
  obtain ⟨_, _, h2⟩ := commentPiece_complete h'
  rw [e, h2] at h1
  simp only [Prod.mk.injEq, and_true] at h1
  obtain ⟨rfl, rfl⟩ := h1
  exact ⟨rfl, rfl, List.append_cancel_left e⟩

theorem comment_cons {raw text x : Str} (h : Spec.Comment x raw text) : ∃ y, raw = '/' :: y := by
  obtain ⟨y, hy, _⟩ := commentPiece_complete h
  exact ⟨y, hy⟩

theorem white_slash : ¬ White '/' := by rw [white_iff]; decide

/-- The stream of a text is determined by its tokens. -/
theorem flow_unique {p : SPos} {rest c : Str} {is : List Item} (h : Flow p rest is c) :
    ∀ {js : List Item}, Flow p rest js c → toks is = toks js → is = js := by
  induction h with
  | nil =>
    intro js h' e
    generalize hc : ([] : Str) = c at h'
    cases h' with
    | nil => rfl
    | space => simp at hc
    | com raw text is c hcm _ =>
      obtain ⟨y, rfl⟩ := comment_cons hcm
      simp at hc
    | tok w is c hw _ _ _ =>
      simp only [List.nil_eq, List.append_eq_nil_iff] at hc
      exact absurd hc.1 hw
  | space ch is c hch _ ih =>
    intro js h' e
    generalize hc : ch :: c = d at h'
    cases h' with
    | nil => simp at hc
    | space ch' js c' _ h2 =>
      simp only [List.cons.injEq] at hc
      obtain ⟨rfl, rfl⟩ := hc
      exact ih h2 e
    | com raw text is c hcm _ =>
      obtain ⟨y, rfl⟩ := comment_cons hcm
      simp only [List.cons_append, List.cons.injEq] at hc
      exact absurd (hc.1 ▸ hch) white_slash
    | tok w is c hw hs _ _ =>
      obtain ⟨a, w, rfl⟩ := List.exists_cons_of_ne_nil hw
      simp only [List.cons_append, List.cons.injEq] at hc
      exact absurd (hc.1 ▸ hch) (hs.1 _ rfl)
  | com raw text is c hcm _ ih =>
    intro js h' e
    generalize hc : raw ++ c = d at h'
    cases h' with
    | nil =>
      obtain ⟨y, rfl⟩ := comment_cons hcm
      simp at hc
    | space ch' js c' hch h2 =>
      obtain ⟨y, rfl⟩ := comment_cons hcm
      simp only [List.cons_append, List.cons.injEq] at hc
      exact absurd (hc.1 ▸ hch) white_slash
    | com raw' text' js c' hcm' h2 =>
      obtain ⟨rfl, rfl, h3⟩ := comment_unique hcm hcm' (by rw [← List.append_assoc, hc, List.append_assoc])
      obtain rfl := List.append_cancel_right h3
      simp only [toks_com] at e
      rw [ih h2 e]
    | tok w is c' hw hs _ _ =>
      refine absurd hcm (hs.2 raw text _ ?_)
      rw [← List.append_assoc, ← hc, List.append_assoc]
  | tok w is c hw hs hx _ ih =>
    intro js h' e
    generalize hc : w ++ c = d at h'
    cases h' with
    | nil =>
      simp only [List.append_eq_nil_iff] at hc
      exact absurd hc.1 hw
    | space ch' js c' hch h2 =>
      obtain ⟨a, w, rfl⟩ := List.exists_cons_of_ne_nil hw
      simp only [List.cons_append, List.cons.injEq] at hc
      exact absurd (hc.1 ▸ hch) (hs.1 _ rfl)
    | com raw' text' js c' hcm' h2 =>
      refine absurd hcm' (hs.2 raw' text' _ ?_)
      rw [← List.append_assoc, hc, List.append_assoc]
    | tok w' js c' _ _ _ h2 =>
      simp only [toks_tok, List.cons.injEq, Tok.mk.injEq, and_true] at e
      obtain ⟨rfl, e⟩ := e
      obtain rfl := List.append_cancel_left hc
      rw [ih h2 e]

/-! ## The comments ahead -/

/-- The comments ahead of position `p`, up to the first quote or bad comment. -/
def ahead (p : SPos) (t : Str) : List Text :=
  match t with
  | [] => []
  | c :: r =>
    if c = '/' then
      match (commentPiece (c :: r)).2.2 with
      | some _ => []
      | none => ⟨(commentPiece (c :: r)).1, p⟩ ::
          ahead (p.advanceAll (commentPiece (c :: r)).2.1) (r.drop ((commentPiece (c :: r)).2.1.length - 1))
    else if isQuote c then []
    else ahead (p.advance c) r
  termination_by t.length
  decreasing_by all_goals simp; try omega

@[simp] theorem ahead_nil (p : SPos) : ahead p [] = [] := by unfold ahead; rfl

theorem ahead_comment {raw text x : Str} (h : Spec.Comment x raw text) (p : SPos) :
    ahead p (raw ++ x) = ⟨text, p⟩ :: ahead (p.advanceAll raw) x := by
  obtain ⟨y, rfl, h1⟩ := commentPiece_complete h
  conv => lhs; unfold ahead
  simp only [List.cons_append] at h1 ⊢
  simp only [h1, if_true]
  simp

theorem ahead_bad {r : Str} {e : String × Char} (h : (commentPiece ('/' :: r)).2.2 = some e) (p : SPos) :
    ahead p ('/' :: r) = [] := by
  unfold ahead
  simp [h]

theorem ahead_quote {c : Char} {r : Str} (h : isQuote c) (p : SPos) : ahead p (c :: r) = [] := by
  have : c ≠ '/' := by rintro rfl; exact absurd h (by decide)
  unfold ahead
  simp [h, this]

/-- A rune that starts neither a comment nor a string. -/
def PlainRune (c : Char) : Prop := c ≠ '/' ∧ isQuote c = false

theorem ahead_plain {c : Char} {r : Str} (h : PlainRune c) (p : SPos) : ahead p (c :: r) = ahead (p.advance c) r := by
  conv => lhs; unfold ahead
  simp [h.1, h.2]

theorem ahead_plains {w r : Str} (h : ∀ c ∈ w, PlainRune c) : ∀ p : SPos, ahead p (w ++ r) = ahead (p.advanceAll w) r := by
  induction w with
  | nil => exact fun _ => rfl
  | cons c w ih =>
    intro p
    rw [List.cons_append, ahead_plain (h c (by simp)), ih (fun x hx => h x (by simp [hx]))]
    rfl

theorem white_plain {c : Char} (h : White c) : PlainRune c := by
  rw [white_iff] at h
  constructor
  · rintro rfl; exact absurd h (by decide)
  · cases hq : isQuote c with
    | false => rfl
    | true =>
      have : c = '\'' ∨ c = '"' := by simpa [isQuote] using hq
      rcases this with rfl | rfl <;> exact absurd h (by decide)

/-- The texts of the comments of a gap. -/
def textsAt (p : SPos) (gs : List (Str × Str)) : List Text :=
  gs.map (fun c => { literal := c.2, pos := p.advanceAll c.1 })

theorem ahead_gap {com : Bool} {rest g : Str} {gs : List (Str × Str)} (h : Gap com rest g gs) :
    ∀ p : SPos, ahead p (g ++ rest) = textsAt p gs ++ ahead (p.advanceAll g) rest := by
  induction h with
  | nil => exact fun _ => rfl
  | space c g cs hc _ ih =>
    intro p
    rw [List.cons_append, ahead_plain (white_plain hc), ih]
    simp [textsAt, Function.comp_def, SPos.advanceAll]
  | comment raw text g cs _ hc _ ih =>
    intro p
    rw [List.append_assoc, ahead_comment hc, ih]
    simp [textsAt, Function.comp_def, SPos.advanceAll]

/-! ### PlainRune tokens -/

theorem isIdentChar_plain {c : Char} (h : isIdentChar c) : PlainRune c := by
  constructor
  · rintro rfl; exact absurd h (by decide)
  · cases hq : isQuote c with
    | false => rfl
    | true =>
      have : c = '\'' ∨ c = '"' := by simpa [isQuote] using hq
      rcases this with rfl | rfl <;> exact absurd h (by decide)

theorem isDecimalDigit_plain {c : Char} (h : isDecimalDigit c) : PlainRune c :=
  isIdentChar_plain (by simp [isIdentChar, h])

theorem isHexDigit_plain {c : Char} (h : isHexDigit c) : PlainRune c := by
  constructor
  · rintro rfl; exact absurd h (by decide)
  · cases hq : isQuote c with
    | false => rfl
    | true =>
      have : c = '\'' ∨ c = '"' := by simpa [isQuote] using hq
      rcases this with rfl | rfl <;> exact absurd h (by decide)

theorem isOctalDigit_plain {c : Char} (h : isOctalDigit c) : PlainRune c := by
  constructor
  · rintro rfl; exact absurd h (by decide)
  · cases hq : isQuote c with
    | false => rfl
    | true =>
      have : c = '\'' ∨ c = '"' := by simpa [isQuote] using hq
      rcases this with rfl | rfl <;> exact absurd h (by decide)

theorem plain_takeWhile {q : Char → Bool} (hq : ∀ c, q c → PlainRune c) (t : Str) :
    ∀ c ∈ t.takeWhile q, PlainRune c := by
  induction t with
  | nil => simp
  | cons d t ih =>
    intro c hc
    by_cases h : q d
    · simp only [List.takeWhile_cons, h, if_true, List.mem_cons] at hc
      rcases hc with rfl | hc
      · exact hq _ h
      · exact ih c hc
    · simp [List.takeWhile_cons, h] at hc

theorem plain_dec (t : Str) : ∀ c ∈ (decPiece t).1, PlainRune c := by
  unfold decPiece
  split
  · exact plain_takeWhile (fun _ => isDecimalDigit_plain) _
  · simp

theorem plain_after {a : Str} {p : Piece} (ha : ∀ c ∈ a, PlainRune c) (hp : ∀ c ∈ p.1, PlainRune c) :
    ∀ c ∈ (p.after a).1, PlainRune c := by
  intro c hc
  simp only [Piece.after, List.mem_append] at hc
  exact hc.elim (ha c) (hp c)

theorem plain_of {c : Char} {cs : List Char} (h : c ∈ cs) (hc : ∀ d ∈ cs, PlainRune d) : PlainRune c := hc c h

theorem plain_exp {t : Str} (h : isExp (hd t)) : ∀ c ∈ (expPiece t).1, PlainRune c := by
  have h1 : PlainRune (hd t) := by
    rcases isExp_iff.1 h with h | h <;> rw [h] <;> exact ⟨by decide, by decide⟩
  unfold expPiece
  split
  · next hs =>
    have h2 : PlainRune (hd t.tail) := by
      rcases isSign_iff.1 hs with h | h <;> rw [h] <;> exact ⟨by decide, by decide⟩
    exact plain_after (by simp [h1, h2]) (plain_dec _)
  · exact plain_after (by simp [h1]) (plain_dec _)

theorem plain_optExp (t : Str) : ∀ c ∈ (optExpPiece t).1, PlainRune c := by
  unfold optExpPiece
  split
  · next h => exact plain_exp h
  · simp

theorem plain_frac (t : Str) : ∀ c ∈ (fracPiece t).1, PlainRune c :=
  plain_after (plain_takeWhile (fun _ => isDecimalDigit_plain) _) (plain_optExp _)

theorem plain_fracNoOmit (t : Str) : ∀ c ∈ (fracNoOmitPiece t).1, PlainRune c := by
  unfold fracNoOmitPiece
  split
  · exact plain_after (plain_takeWhile (fun _ => isDecimalDigit_plain) _) (plain_optExp _)
  · exact plain_dec _

theorem plain_dot : PlainRune '.' := ⟨by decide, by decide⟩

theorem plain_num {t : Str} (h : isDecimalDigit (hd t) ∨ hd t = '.') : ∀ c ∈ (numPiece t).2.1, PlainRune c := by
  have h1 : PlainRune (hd t) := by
    rcases h with h | h
    · exact isDecimalDigit_plain h
    · rw [h]; exact plain_dot
  have hds := plain_takeWhile (fun _ => isDecimalDigit_plain) t.tail
  unfold numPiece
  simp only
  split
  · next hx =>
    have h2 : PlainRune (hd t.tail) := by
      rcases hx.2 with h | h <;> rw [h] <;> exact ⟨by decide, by decide⟩
    split
    · intro c hc
      simp only [List.mem_cons] at hc
      rcases hc with rfl | rfl | hc
      · exact h1
      · exact h2
      · exact plain_takeWhile (fun _ => isHexDigit_plain) _ c hc
    · simp [h1, h2]
  split
  · exact plain_after (by simp [h1]) (plain_fracNoOmit _)
  split
  · next h2 => exact plain_after (by simp [h1, h2, plain_dot]) (plain_frac _)
  split
  · next h2 => exact plain_after (by simp [h1]) (plain_exp h2)
  split
  · intro c hc
    simp only [List.mem_cons] at hc
    rcases hc with rfl | hc
    · exact h1
    · exact plain_takeWhile (fun _ => isOctalDigit_plain) _ c hc
  have hc : ∀ c ∈ hd t :: t.tail.takeWhile isDecimalDigit, PlainRune c := by
    intro c hc
    simp only [List.mem_cons] at hc
    rcases hc with rfl | hc
    · exact h1
    · exact hds c hc
  split
  · refine plain_after ?_ (plain_frac _)
    intro c h
    rcases List.mem_append.1 h with h | h
    · exact hc c h
    · rw [List.mem_singleton.1 h]; exact plain_dot
  split
  · next h2 => exact plain_after hc (plain_exp h2)
  · exact hc

theorem ofPiece_token {tok : Token} {p : Piece} : (LexOut.ofPiece tok p).token = tok ∨
    (LexOut.ofPiece tok p).token = .illegal := by
  unfold LexOut.ofPiece; split <;> simp

/-- Whether a token of this kind is plain. -/
def PlainToken (t : Token) : Prop := t ≠ .strLit ∧ t ≠ .quote ∧ t ≠ .illegal

theorem tokenAt_ahead (m : Mode) {t : Str} (h : hd t ≠ '/') (p : SPos) :
    (ahead p t = ahead (p.advanceAll (tokenAt m t).body) (t.drop (tokenAt m t).body.length)) ∨
    (ahead p t = [] ∧ ¬ PlainToken (tokenAt m t).token) := by
  cases t with
  | nil => left; simp [tokenAt, SPos.advanceAll]
  | cons c r =>
    simp only [hd_cons] at h
    have key : (∀ x ∈ (tokenAt m (c :: r)).body, PlainRune x) → ahead p (c :: r) =
        ahead (p.advanceAll (tokenAt m (c :: r)).body) ((c :: r).drop (tokenAt m (c :: r)).body.length) := by
      intro hp
      obtain ⟨a, x, h1, rfl⟩ := tokenAt_prefix m c r
      have := ahead_plains (r := x) hp p
      rw [h1] at this ⊢
      simpa using this
    by_cases hq : isQuote c
    · refine .inr ⟨ahead_quote hq p, fun hp => ?_⟩
      have hl : ¬ (isLetter c ∨ c = '_') := by
        have : c = '\'' ∨ c = '"' := by simpa [isQuote] using hq
        rcases this with rfl | rfl <;> decide
      have hn : ¬ ((isDecimalDigit c ∨ c = '.') ∧ m.number) := by
        have : c = '\'' ∨ c = '"' := by simpa [isQuote] using hq
        rcases this with rfl | rfl <;> exact fun h => absurd h.1 (by decide)
      unfold tokenAt at hp
      simp only [hd_cons, reduceCtorEq, if_false, hl, hn, hq] at hp
      by_cases hs : m.str
      · simp only [hs, and_self, if_true] at hp
        rcases ofPiece_token (tok := .strLit) (p := strPiece (c :: r)) with h | h
        · exact hp.1 h
        · exact hp.2.2 h
      · simp only [hs] at hp
        have : c = '\'' ∨ c = '"' := by simpa [isQuote] using hq
        rcases this with rfl | rfl <;> exact hp.2.1 rfl
    · refine .inl (key ?_)
      unfold tokenAt
      simp only [hd_cons, List.tail_cons, reduceCtorEq, if_false]
      split
      · next hw =>
        intro x hx
        simp only [List.mem_cons] at hx
        rcases hx with rfl | hx
        · refine isIdentChar_plain ?_
          rcases hw with hw | hw <;> simp [isIdentChar, hw]
        · exact plain_takeWhile (fun _ => isIdentChar_plain) _ x hx
      split
      · next hs => exact absurd hs.1 hq
      split
      · next hn => rw [ofPiece_body]; exact plain_num hn.1
      · intro x hx
        rw [List.mem_singleton.1 hx]
        exact ⟨h, by simpa using hq⟩

theorem lex_ahead (m : Mode) (t : Str) (p : SPos) : ∃ B, ahead p t = (lex m t).texts p ++ B ∧
    (B = ahead (p.advanceAll (lex m t).raw) (t.drop (lex m t).raw.length) ∨
      B = [] ∧ ¬ PlainToken (lex m t).token) := by
  obtain ⟨g, cs, t', rfl, h2, h3, h⟩ := lex_cases m t
  rw [ahead_gap h2 p]
  rcases h with ⟨h4, h⟩ | ⟨r, e, h4, h5, h⟩ | ⟨r, h4, hm, h5, h⟩
  · refine ⟨ahead (p.advanceAll g) t', by rw [h]; simp [LexOut.texts, LexOut.withGap, textsAt], ?_⟩
    rw [h]
    have e1 : ((tokenAt m t').withGap g cs).raw = g ++ (tokenAt m t').body := rfl
    have e2 : ((tokenAt m t').withGap g cs).token = (tokenAt m t').token := rfl
    rw [e1, e2]
    have e3 : (g ++ t').drop (g ++ (tokenAt m t').body).length = t'.drop (tokenAt m t').body.length := by
      rw [List.length_append, ← List.drop_drop, List.drop_left]
    rw [e3, SPos.advanceAll_append]
    exact tokenAt_ahead m h4 (p.advanceAll g)
  · subst h4
    refine ⟨[], by rw [h, ahead_bad h5]; simp [LexOut.texts, LexOut.withGap, textsAt], .inr ⟨rfl, ?_⟩⟩
    rw [h]
    exact fun hp => hp.2.2 rfl
  · subst h4
    obtain ⟨x, h6, h7⟩ := commentPiece_sound h5
    refine ⟨ahead ((p.advanceAll g).advanceAll (commentPiece ('/' :: r)).2.1) x, ?_, .inl ?_⟩
    · rw [h]
      conv => lhs; rw [h6]
      rw [ahead_comment h7]
      simp [LexOut.texts, LexOut.withGap, textsAt]
    · rw [h]
      have e : ('/' :: r).drop (commentPiece ('/' :: r)).2.1.length = x := by
        have := congrArg (List.drop (commentPiece ('/' :: r)).2.1.length) h6
        rwa [List.drop_left] at this
      have e3 : (g ++ '/' :: r).drop (g ++ (commentPiece ('/' :: r)).2.1).length = x := by
        rw [List.length_append, ← List.drop_drop, List.drop_left, e]
      show _ = ahead (p.advanceAll (g ++ (commentPiece ('/' :: r)).2.1))
        ((g ++ '/' :: r).drop (g ++ (commentPiece ('/' :: r)).2.1).length)
      rw [e3, SPos.advanceAll_append]

/-! ### Offsets -/

theorem offset_advance (p : SPos) (c : Char) : p.p.offset < (p.advance c).p.offset := by
  have := Char.utf8Size_pos c
  unfold SPos.advance
  split <;> simp <;> omega

theorem offset_mono (t : Str) : ∀ p : SPos, p.p.offset ≤ (p.advanceAll t).p.offset := by
  induction t with
  | nil => exact fun _ => Int.le_refl _
  | cons c t ih => exact fun p => Int.le_trans (Int.le_of_lt (offset_advance p c)) (ih _)

theorem offset_lt {t : Str} (h : t ≠ []) (p : SPos) : p.p.offset < (p.advanceAll t).p.offset := by
  obtain ⟨c, r, rfl⟩ := List.exists_cons_of_ne_nil h
  exact Int.lt_of_lt_of_le (offset_advance p c) (offset_mono r _)

/-- The offset of a recorded comment. -/
abbrev Text.off (t : Text) : Int := t.pos.p.offset

theorem ahead_offset (n : Nat) : ∀ {t : Str} {p : SPos}, t.length < n →
    (∀ x ∈ ahead p t, p.p.offset ≤ x.off) ∧ (ahead p t).Pairwise (fun x y => x.off < y.off) := by
  induction n with
  | zero => intro t p h; omega
  | succ n ih =>
    intro t p hn
    cases t with
    | nil => simp
    | cons c r =>
      by_cases h1 : c = '/'
      · subst h1
        cases hp : (commentPiece ('/' :: r)).2.2 with
        | some e => rw [ahead_bad hp]; simp
        | none =>
          obtain ⟨x, h6, h7⟩ := commentPiece_sound hp
          obtain ⟨y, hy⟩ := comment_cons h7
          rw [h6, ahead_comment h7]
          have hl := congrArg List.length h6
          rw [hy] at hl
          simp only [List.length_cons, List.length_append] at hl hn
          obtain ⟨k1, k2⟩ := ih (t := x) (p := p.advanceAll (commentPiece ('/' :: r)).2.1) (by omega)
          have k3 := offset_lt (t := (commentPiece ('/' :: r)).2.1) (by rw [hy]; simp) p
          refine ⟨?_, List.pairwise_cons.2 ⟨?_, k2⟩⟩
          · intro z hz
            rcases List.mem_cons.1 hz with rfl | hz
            · exact Int.le_refl _
            · exact Int.le_of_lt (Int.lt_of_lt_of_le k3 (k1 z hz))
          · exact fun z hz => Int.lt_of_lt_of_le k3 (k1 z hz)
      · by_cases h2 : isQuote c
        · rw [ahead_quote h2]; simp
        · rw [ahead_plain ⟨h1, by simpa using h2⟩]
          obtain ⟨k1, k2⟩ := ih (t := r) (p := p.advance c) (by simp at hn; omega)
          exact ⟨fun z hz => Int.le_of_lt (Int.lt_of_lt_of_le (offset_advance p c) (k1 z hz)), k2⟩

theorem ahead_le {t : Str} {p : SPos} : ∀ x ∈ ahead p t, p.p.offset ≤ x.off :=
  (ahead_offset (t.length + 1) (Nat.lt_succ_self _)).1

theorem ahead_sorted (t : Str) (p : SPos) : (ahead p t).Pairwise (fun x y => x.off < y.off) :=
  (ahead_offset (t.length + 1) (Nat.lt_succ_self _)).2

/-! ### Recording -/

/-- One step of `GetScannedComments`. -/
def record (u : List Text) (c : Text) : List Text := if !findComment u c then u ++ [c] else u

theorem record_old {u : List Text} {c : Text} (h : c ∈ u) : record u c = u := by
  have : findComment u c = true := by
    simp only [findComment, List.any_eq_true]
    exact ⟨c, h, by simp⟩
  simp [record, this]

theorem record_new {u : List Text} {c : Text} (h : ∀ x ∈ u, x.off ≠ c.off) : record u c = u ++ [c] := by
  have : findComment u c = false := by
    simp only [findComment, List.any_eq_false]
    intro x hx
    have := h x hx
    simp only [decide_eq_true_eq, not_and]
    exact fun e => absurd e.symm this
  simp [record, this]

theorem record_olds {u : List Text} : ∀ {T : List Text}, (∀ x ∈ T, x ∈ u) → T.foldl record u = u
  | [], _ => rfl
  | c :: T, h => by
    rw [List.foldl_cons, record_old (h c (by simp))]
    exact record_olds (fun x hx => h x (by simp [hx]))

theorem record_news : ∀ {T u : List Text}, T.Pairwise (fun x y => x.off < y.off) →
    (∀ x ∈ u, ∀ y ∈ T, x.off ≠ y.off) → T.foldl record u = u ++ T
  | [], _, _, _ => by simp
  | c :: T, u, h1, h2 => by
    rw [List.foldl_cons, record_new (fun x hx => h2 x hx c (by simp))]
    obtain ⟨h3, h4⟩ := List.pairwise_cons.1 h1
    rw [record_news h4]
    · simp
    · intro x hx y hy
      rcases List.mem_append.1 hx with hx | hx
      · exact h2 x hx y (by simp [hy])
      · rw [List.mem_singleton.1 hx]
        exact Int.ne_of_lt (h3 y hy)

theorem recorded_append {s s' : Scanner} {T : List Text} (h : s'.comments = s.comments ++ T) :
    s'.getScannedComments = T.foldl record s.getScannedComments := by
  show s'.comments.foldl record [] = T.foldl record (s.comments.foldl record [])
  rw [h, List.foldl_append]

/-- The recorded comments are `K`, before the cursor, and some of those ahead. -/
structure Inv (K : List Text) (l : Lexer) : Prop where
  before : ∀ x ∈ K, x.off < l.scanner.pos.p.offset
  seen : ∃ A, l.scanner.getScannedComments = K ++ A ∧ A <+: ahead l.scanner.pos l.scanner.inp

/-- Recording comments that lie directly ahead. -/
theorem record_ahead {D K A T B : List Text} {o : Int} (hD : D = K ++ A) (hA : A <+: T ++ B)
    (hK : ∀ x ∈ K, x.off < o) (hT : ∀ x ∈ T, o ≤ x.off)
    (hs : (T ++ B).Pairwise (fun x y => x.off < y.off)) :
    ∃ A', T.foldl record D = K ++ T ++ A' ∧ A' <+: B := by
  subst hD
  obtain ⟨t, h⟩ := hA
  rcases List.append_eq_append_iff.1 h with ⟨T2, rfl, h⟩ | ⟨A2, rfl, h1⟩
  · refine ⟨[], ?_, List.nil_prefix⟩
    rw [List.foldl_append, record_olds (T := A) (fun x hx => List.mem_append.2 (.inr hx))]
    simp only [List.append_assoc] at hs
    obtain ⟨_, hs2, hs3⟩ := List.pairwise_append.1 hs
    rw [record_news (List.pairwise_append.1 hs2).1]
    · simp
    · intro x hx y hy
      rcases List.mem_append.1 hx with hx | hx
      · exact Int.ne_of_lt (Int.lt_of_lt_of_le (hK x hx) (hT y (by simp [hy])))
      · exact Int.ne_of_lt (hs3 x hx y (by simp [hy]))
  · refine ⟨A2, ?_, ⟨t, h1.symm⟩⟩
    rw [record_olds (fun x hx => List.mem_append.2 (.inr (List.mem_append.2 (.inl hx))))]
    simp

theorem texts_offset (m : Mode) (t : Str) (p : SPos) : ∀ x ∈ (lex m t).texts p, p.p.offset ≤ x.off := by
  obtain ⟨B, h, _⟩ := lex_ahead m t p
  intro x hx
  exact ahead_le (p := p) (t := t) x (by rw [h]; simp [hx])

theorem gap_before {com : Bool} {rest g : Str} {gs : List (Str × Str)} (h : Gap com rest g gs) :
    ∀ q ∈ gs, ∃ x, x ≠ [] ∧ g = q.1 ++ x := by
  induction h with
  | nil => simp
  | space c g cs hc _ ih =>
    intro q hq
    obtain ⟨q', hq', rfl⟩ := List.mem_map.1 hq
    obtain ⟨x, hx, e⟩ := ih q' hq'
    exact ⟨x, hx, by rw [e]; simp⟩
  | comment raw text g cs _ hc _ ih =>
    intro q hq
    rcases List.mem_cons.1 hq with rfl | hq
    · obtain ⟨y, rfl⟩ := comment_cons hc
      exact ⟨'/' :: y ++ g, by simp, rfl⟩
    · obtain ⟨q', hq', rfl⟩ := List.mem_map.1 hq
      obtain ⟨x, hx, e⟩ := ih q' hq'
      exact ⟨x, hx, by rw [e]; simp⟩

theorem texts_before (m : Mode) (t : Str) (p : SPos) :
    ∀ x ∈ (lex m t).texts p, x.off < (p.advanceAll (lex m t).raw).p.offset := by
  have key : ∀ q ∈ (lex m t).coms, ∃ x, x ≠ [] ∧ (lex m t).raw = q.1 ++ x := by
    obtain ⟨g, cs, t', rfl, h2, h3, h⟩ := lex_cases m t
    have hg := gap_before h2
    rcases h with ⟨h4, h⟩ | ⟨r, e, h4, h5, h⟩ | ⟨r, h4, hm, h5, h⟩
    · rw [h]
      intro q hq
      obtain ⟨x, hx, e⟩ := hg q (by simpa [LexOut.withGap] using hq)
      exact ⟨x ++ (tokenAt m t').body, by simp [hx], by simp [LexOut.raw, LexOut.withGap, e]⟩
    · rw [h]
      intro q hq
      obtain ⟨x, hx, e⟩ := hg q (by simpa [LexOut.withGap] using hq)
      exact ⟨x ++ (commentPiece t').2.1, by simp [hx], by simp [LexOut.raw, LexOut.withGap, e]⟩
    · rw [h]
      intro q hq
      simp only [LexOut.withGap, List.mem_append, List.mem_map, List.mem_singleton] at hq
      rcases hq with hq | ⟨q', rfl, rfl⟩
      · obtain ⟨x, hx, e⟩ := hg q hq
        exact ⟨x ++ (commentPiece t').2.1, by simp [hx], by simp [LexOut.raw, LexOut.withGap, e]⟩
      · subst h4
        obtain ⟨a, x, h6, _⟩ := commentPiece_prefix r
        exact ⟨(commentPiece ('/' :: r)).2.1, by rw [h6]; simp, by simp [LexOut.raw, LexOut.withGap]⟩
  intro x hx
  obtain ⟨q, hq, rfl⟩ := List.mem_map.1 hx
  obtain ⟨y, hy, e⟩ := key q hq
  rw [e, SPos.advanceAll_append]
  exact offset_lt hy _

/-- Reading a token. -/
theorem Inv.next {K : List Text} {l : Lexer} (h : Inv K l) (m : Mode) :
    Inv (K ++ (lex m l.scanner.inp).texts l.scanner.pos) (nextSt m l) := by
  obtain ⟨hb, A, hD, hA⟩ := h
  obtain ⟨B, e, hB⟩ := lex_ahead m l.scanner.inp l.scanner.pos
  have hs := ahead_sorted l.scanner.inp l.scanner.pos
  rw [e] at hA hs
  obtain ⟨A', k1, k2⟩ := record_ahead hD hA hb (texts_offset m _ _) hs
  refine ⟨?_, A', ?_, ?_⟩
  · intro x hx
    have hp : (nextSt m l).scanner.pos = l.scanner.pos.advanceAll (lex m l.scanner.inp).raw := rfl
    rw [hp]
    rcases List.mem_append.1 hx with hx | hx
    · exact Int.lt_of_lt_of_le (hb x hx) (offset_mono _ _)
    · exact texts_before m _ _ x hx
  · rw [recorded_append (s := l.scanner) (T := (lex m l.scanner.inp).texts l.scanner.pos) rfl]
    exact k1
  · rcases hB with hB | ⟨hB, _⟩
    · rw [hB] at k2
      exact k2
    · rw [hB] at k2
      rw [List.prefix_nil.1 k2]
      exact List.nil_prefix

/-- Reading a token and putting it back. -/
theorem Inv.putBack {K : List Text} {l : Lexer} (h : Inv K l) (m : Mode) : Inv K (putBack m l) := by
  obtain ⟨hb, A, hD, hA⟩ := h
  obtain ⟨B, e, hB⟩ := lex_ahead m l.scanner.inp l.scanner.pos
  have hs := ahead_sorted l.scanner.inp l.scanner.pos
  have hA' := hA
  rw [e] at hA hs
  obtain ⟨A', k1, k2⟩ := record_ahead hD hA hb (texts_offset m _ _) hs
  refine ⟨hb, (lex m l.scanner.inp).texts l.scanner.pos ++ A', ?_, ?_⟩
  · rw [recorded_append (s := l.scanner) (T := (lex m l.scanner.inp).texts l.scanner.pos) rfl, k1,
      List.append_assoc]
  · show _ <+: ahead l.scanner.pos l.scanner.inp
    rw [e]
    exact (List.prefix_append_right_inj _).2 k2

/-- Going back over a plain token. -/
theorem Inv.back {K : List Text} {l l2 l3 : Lexer} {m : Mode}
    (h : Inv (K ++ (lex m l.scanner.inp).texts l.scanner.pos) l2) (hK : Inv K l)
    (ht : PlainToken (nextSt m l).token) (hi : l2.scanner.inp = (nextSt m l).scanner.inp)
    (hp : l2.scanner.pos = (nextSt m l).scanner.pos) (hi3 : l3.scanner.inp = l.scanner.inp)
    (hp3 : l3.scanner.pos = l.scanner.pos) (hc : l3.scanner.comments = l2.scanner.comments) : Inv K l3 := by
  obtain ⟨hb, A, hD, hA⟩ := h
  obtain ⟨B, e, hB⟩ := lex_ahead m l.scanner.inp l.scanner.pos
  rcases hB with hB | ⟨_, hB⟩
  · refine ⟨by rw [hp3]; exact hK.before, (lex m l.scanner.inp).texts l.scanner.pos ++ A, ?_, ?_⟩
    · rw [recorded_append (s := l2.scanner) (T := []) (by simp [hc])]
      show l2.scanner.getScannedComments = _
      rw [hD, List.append_assoc]
    · rw [hi3, hp3, e, hB]
      rw [hi, hp] at hA
      exact (List.prefix_append_right_inj _).2 hA
  · exact absurd ht hB

/-- Only the cursor and the recorded comments matter. -/
theorem Inv.congr {K : List Text} {l l' : Lexer} (h : Inv K l) (hi : l'.scanner.inp = l.scanner.inp)
    (hp : l'.scanner.pos = l.scanner.pos) (hc : l'.scanner.comments = l.scanner.comments) : Inv K l' := by
  obtain ⟨hb, A, hD, hA⟩ := h
  refine ⟨by rw [hp]; exact hb, A, ?_, by rw [hi, hp]; exact hA⟩
  rw [recorded_append (s := l.scanner) (T := []) (by simp [hc])]
  exact hD

theorem Inv.new (inp filename : Str) : Inv [] (Lexer.new inp filename) :=
  ⟨by simp, [], rfl, List.nil_prefix⟩

/-- A recorded comment as a node. -/
def Text.node (t : Text) : Comment := Parser.mkComment t.literal t.pos

/-- The comments between two states, at which the tokens `ts` were consumed, are recorded. -/
def Recs (l : Lexer) (ts : List Tok) (l' : Lexer) : Prop :=
  ∀ K, Inv K l → ∃ is c T, l.scanner.inp = c ++ l'.scanner.inp ∧
    l'.scanner.pos = l.scanner.pos.advanceAll c ∧ Flow l.scanner.pos l'.scanner.inp is c ∧
    toks is = ts ∧ T.map Text.node = commentsIn is ∧ Inv (K ++ T) l'

theorem Recs.of_inv {l l' : Lexer} (hi : l'.scanner.inp = l.scanner.inp)
    (hp : l'.scanner.pos = l.scanner.pos) (h : ∀ K, Inv K l → Inv K l') : Recs l [] l' :=
  fun K hK => ⟨[], [], [], by rw [hi]; rfl, by rw [hp]; rfl, .nil, rfl, rfl, by simpa using h K hK⟩

theorem Recs.refl (l : Lexer) : Recs l [] l := .of_inv rfl rfl (fun _ h => h)

theorem Recs.trans {l l1 l2 : Lexer} {ts1 ts2 : List Tok} (h1 : Recs l ts1 l1) (h2 : Recs l1 ts2 l2) :
    Recs l (ts1 ++ ts2) l2 := by
  intro K hK
  obtain ⟨is1, c1, T1, i1, p1, y1, rfl, n1, k1⟩ := h1 K hK
  obtain ⟨is2, c2, T2, i2, p2, y2, rfl, n2, k2⟩ := h2 _ k1
  rw [i2] at y1
  rw [p1] at y2
  exact ⟨_, _, T1 ++ T2, by rw [i1, i2]; simp, by rw [p2, p1]; simp, flow_append y1 y2, toks_append _ _,
    by simp [n1, n2, commentsIn_append], by simpa using k2⟩

theorem Recs.congr {l l' l'' : Lexer} {ts : List Tok} (h : Recs l ts l')
    (hi : l''.scanner.inp = l'.scanner.inp) (hp : l''.scanner.pos = l'.scanner.pos)
    (h' : ∀ K, Inv K l' → Inv K l'') : Recs l ts l'' := by
  simpa using h.trans (.of_inv hi hp h')

theorem recs_putBack (m : Mode) (l : Lexer) : Recs l [] (Lexer.putBack m l) :=
  .of_inv rfl rfl (fun _ h => h.putBack m)

end Verif
