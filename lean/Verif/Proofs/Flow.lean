import Verif.Proofs.ParseComment
import Verif.Spec.Comments

/-!
# Streams of tokens and comments
-/

set_option backward.isDefEq.respectTransparency false
set_option backward.dsimp.instances true

namespace Verif
open Spec Scanner Lexer
open M (bind_ok run_get)

theorem layE_flow {p : SPos} {rest c : Str} {ts : List Tok} (h : LayE p rest ts c) :
    ∃ is, Flow p rest is c ∧ toks is = ts ∧ (ts = [] → is = []) ∧ (ts ≠ [] → ∃ t, EndsIn t is) := by
  induction h with
  | nil => exact ⟨[], .nil, rfl, fun _ => rfl, by simp⟩
  | cons g cs w ts c h hw hs hx _ ih =>
    rename_i p rest _
    obtain ⟨is, h1, h2, h4, h3⟩ := ih
    rw [SPos.advanceAll_append] at h1
    have k1 := Flow.tok (p := p.advanceAll g) w is c hw hs hx h1
    have k2 := flow_append (p := p) (rest := rest) (c2 := w ++ c) (by simpa using flow_gap h p) k1
    refine ⟨_, k2, by simp [toks_append, h2], by simp, fun _ => ?_⟩
    by_cases hn : ts = []
    · rw [h4 hn]
      exact ⟨_, _, rfl⟩
    · obtain ⟨t, js, rfl⟩ := h3 hn
      exact ⟨t, _ ++ .tok _ :: js, (List.append_assoc _ (.tok _ :: js) [.tok t]).symm⟩

theorem lay_flow {p : SPos} {rest c : Str} {ts : List Tok} (h : Lay p rest ts c) :
    ∃ is, Flow p rest is c ∧ toks is = ts := by
  induction h with
  | nil g cs h => exact ⟨_, flow_gap h _, by simp⟩
  | cons g cs w ts c h hw hs hx _ ih =>
    rename_i p rest _
    obtain ⟨is, h1, h2⟩ := ih
    rw [SPos.advanceAll_append] at h1
    have k1 := Flow.tok (p := p.advanceAll g) w is c hw hs hx h1
    have k2 := flow_append (p := p) (rest := rest) (c2 := w ++ c) (by simpa using flow_gap h p) k1
    exact ⟨_, k2, by simp [toks_append, h2]⟩

/-- The first comment of a stream. -/
theorem flow_com {p : SPos} {rest c : Str} {x : Comment} {is : List Item} (h : Flow p rest (.com x :: is) c) :
    ∃ w raw text c', c = w ++ (raw ++ c') ∧ Gap false (raw ++ (c' ++ rest)) w [] ∧
      Spec.Comment (c' ++ rest) raw text ∧ x = Parser.mkComment text (p.advanceAll w) := by
  generalize hi : Item.com x :: is = js at h
  induction h with
  | nil => simp at hi
  | space ch js c hc _ ih =>
    obtain ⟨w, raw, text, c', rfl, h1, h2, h3⟩ := ih hi
    exact ⟨ch :: w, raw, text, c', rfl, by simpa using Gap.space (com := false) ch w [] hc h1, h2, h3⟩
  | com raw text js c hc _ _ =>
    simp only [List.cons.injEq, Item.com.injEq] at hi
    exact ⟨[], raw, text, c, rfl, .nil, hc, hi.1⟩
  | tok => simp at hi

theorem lex_comment {raw rest text : Str} (hc : Spec.Comment rest raw text) :
    lex .commentMode (raw ++ rest) =
      { coms := [([], text)], body := raw, token := .comment, text := text } := by
  obtain ⟨y, hy, hp⟩ := commentPiece_complete hc
  have e : raw ++ rest = '/' :: (y ++ rest) := by rw [hy]; rfl
  rw [e] at hp ⊢
  rw [lex_comment_tok (by rw [hp]) rfl, hp]

/-- The first comment of a stream is read in comment mode. -/
theorem flow_com_next {l : Lexer} {rest c : Str} {x : Comment} {is : List Item}
    (hi : l.scanner.inp = c ++ rest) (h : Flow l.scanner.pos rest (.com x :: is) c) :
    (nextSt .commentMode l).token = .comment ∧ x.info.pos = (nextSt .commentMode l).pos.p := by
  obtain ⟨w, raw, text, c', rfl, h1, h2, rfl⟩ := flow_com h
  have := lex_gap (m := .commentMode) (g := w) (rest := raw ++ (c' ++ rest)) (cs := []) h1
  rw [lex_comment h2] at this
  have hi : l.scanner.inp = w ++ (raw ++ (c' ++ rest)) := by rw [hi]; simp
  simp only [nextSt]
  rw [hi, this]
  simp [Parser.mkComment]

/-- The tokens and comments `is` were consumed between `l` and `l'`. -/
structure TookI (l : Lexer) (is : List Item) (l' : Lexer) : Prop where
  took : Took l (toks is) l'
  flow : ∃ c, l.scanner.inp = c ++ l'.scanner.inp ∧ l'.scanner.pos = l.scanner.pos.advanceAll c ∧
    Flow l.scanner.pos l'.scanner.inp is c

theorem TookI.good {l l' : Lexer} {is : List Item} (h : TookI l is l') : Good l' := h.took.good

theorem TookI.refl {l : Lexer} (h : Good l) : TookI l [] l := ⟨Took.refl h, [], rfl, rfl, .nil⟩

theorem TookI.trans {l l1 l2 : Lexer} {is1 is2 : List Item} (h1 : TookI l is1 l1) (h2 : TookI l1 is2 l2) :
    TookI l (is1 ++ is2) l2 := by
  obtain ⟨t1, c1, i1, p1, y1⟩ := h1
  obtain ⟨t2, c2, i2, p2, y2⟩ := h2
  refine ⟨by rw [toks_append]; exact t1.trans t2, c1 ++ c2, by rw [i1, i2]; simp, by rw [p2, p1]; simp, ?_⟩
  rw [i2] at y1
  rw [p1] at y2
  exact flow_append y1 y2

theorem Back.tookI {l l' : Lexer} (h : Back l l') (hg : Good l) : TookI l [] l' :=
  ⟨h.took hg, [], by rw [h.inp]; rfl, by rw [h.pos]; rfl, .nil⟩

theorem TookI.back {l l1 l2 : Lexer} {is : List Item} (h1 : TookI l is l1) (h2 : Back l1 l2) :
    TookI l is l2 := by simpa using h1.trans (h2.tookI h1.good)

/-- No comment follows. -/
def NoCom (l : Lexer) : Prop := (nextSt .commentMode l).token ≠ .comment

/-- No comment follows on line `n`. -/
def NoComOn (n : Int) (l : Lexer) : Prop :=
  (nextSt .commentMode l).token = .comment → (nextSt .commentMode l).pos.p.line ≠ n

theorem NoCom.back {l l' : Lexer} (h : NoCom l) (hb : Back l l') : NoCom l' := by
  unfold NoCom; rw [hb.token]; exact h

theorem NoComOn.back {l l' : Lexer} {n : Int} (h : NoComOn n l) (hb : Back l l') : NoComOn n l' := by
  unfold NoComOn; rw [hb.token, hb.tpos]; exact h

theorem NoCom.starts {l l' : Lexer} {is : List Item} (h : NoCom l) (ht : TookI l is l') (hn : is ≠ []) :
    Starts is := by
  obtain ⟨_, c, h1, _, h2⟩ := ht
  cases is with
  | nil => exact absurd rfl hn
  | cons i is =>
    cases i with
    | tok t => exact ⟨t, is, rfl⟩
    | com x => exact absurd (flow_com_next h1 h2).1 h

theorem NoComOn.head {l l' : Lexer} {n : Int} {is : List Item} (h : NoComOn n l) (ht : TookI l is l') {c : Comment}
    (hc : is.head? = some (.com c)) : c.info.pos.line ≠ n := by
  obtain ⟨_, x, h1, _, h2⟩ := ht
  cases is with
  | nil => simp at hc
  | cons i is =>
    simp only [List.head?_cons, Option.some.injEq] at hc
    subst hc
    obtain ⟨h3, h4⟩ := flow_com_next h1 h2
    rw [h4]
    exact h h3

/-- As a stream. -/
theorem Took.items {l l' : Lexer} {ts : List Tok} (h : Took l ts l') : ∃ is, TookI l is l' ∧ toks is = ts := by
  obtain ⟨hg, ⟨c, i, p, y, z⟩, r⟩ := h
  obtain ⟨is, h1, rfl⟩ := lay_flow y
  exact ⟨is, ⟨⟨hg, ⟨c, i, p, y, z⟩, r⟩, c, i, p, h1⟩, rfl⟩

/-- The tokens up to the one just read, as a stream. -/
theorem Took.seg {l l' : Lexer} {ts : List Tok} {x : Tok} (h : Took l (ts ++ [x]) l') (hr : Real l'.token) :
    ∃ is, TookI l is l' ∧ toks is = ts ++ [x] ∧ EndsIn x is ∧ (NoCom l → Starts is) := by
  obtain ⟨hg, ⟨c, i, p, y, z⟩, r⟩ := h
  obtain ⟨is, h1, h2, _, h3⟩ := layE_flow (z hr).1
  obtain ⟨t, js, rfl⟩ := h3 (by simp)
  have ht : TookI l (js ++ [.tok t]) l' := ⟨⟨hg, ⟨c, i, p, by rw [h2]; exact y, by rw [h2]; exact z⟩, by rw [h2]; exact r⟩, c, i, p, h1⟩
  have : t = x := by
    simp only [toks_append, toks_tok, toks_nil] at h2
    exact (List.append_inj_right' h2 rfl |> List.singleton_inj.1)
  subst this
  exact ⟨_, ht, h2, ⟨js, rfl⟩, fun hn => hn.starts ht (by simp)⟩

theorem toks_eq_nil {is : List Item} (h : toks is = []) : ∃ cs, is = coms cs := by
  induction is with
  | nil => exact ⟨[], rfl⟩
  | cons i is ih =>
    cases i with
    | tok t => simp at h
    | com c =>
      obtain ⟨cs, rfl⟩ := ih h
      exact ⟨c :: cs, rfl⟩

theorem Spec.EndsIn.append {t : Tok} {is : List Item} (h : EndsIn t is) (js : List Item) : EndsIn t (js ++ is) := by
  obtain ⟨ks, rfl⟩ := h
  exact ⟨js ++ ks, by simp⟩

theorem Spec.EndsIn.last {t x : Tok} {is : List Item} {ts : List Tok} (h : EndsIn t is) (h1 : toks is = ts ++ [x]) :
    t = x := by
  obtain ⟨js, rfl⟩ := h
  simp only [toks_append, toks_tok, toks_nil] at h1
  exact List.append_inj_right' h1 rfl |> List.singleton_inj.1

/-- A stream with one token, at its end. -/
theorem endsIn_one {t x : Tok} {is : List Item} (h : EndsIn t is) (h1 : toks is = [x]) :
    ∃ lost, is = coms lost ++ [.tok x] := by
  have := h.last (ts := []) h1
  subst this
  obtain ⟨js, rfl⟩ := h
  simp only [toks_append, toks_tok, toks_nil, List.append_eq_singleton_iff] at h1
  rcases h1 with ⟨h1, _⟩ | ⟨_, h1⟩
  · obtain ⟨cs, rfl⟩ := toks_eq_nil h1
    exact ⟨cs, rfl⟩
  · simp at h1

theorem starts_coms {is : List Item} {lost : List Comment} (h : Starts (coms lost ++ is)) : lost = [] := by
  cases lost with
  | nil => rfl
  | cons c cs =>
    obtain ⟨t, js, h⟩ := h
    simp [coms] at h

theorem starts_append {is js : List Item} (h : Starts is) : Starts (is ++ js) := by
  obtain ⟨t, ks, rfl⟩ := h
  exact ⟨t, ks ++ js, rfl⟩

theorem Spec.Behind.prefix {n : Int} {o : Option Verif.Comment} {is js : List Item} (h : Behind n o (is ++ js)) :
    Behind n o is := by
  refine ⟨h.1, fun ho c hc => h.2 ho c ?_⟩
  cases is with
  | nil => simp at hc
  | cons i is => simpa using hc

theorem Spec.EndsIn.upTo {x : Tok} {is : List Item} {ts : List Tok} {w : Str} (h : EndsIn x is)
    (h1 : toks is = ts ++ [x]) (h2 : x.text = w) (h3 : ∀ t ∈ ts, t.text ≠ w) : UpTo w x is := by
  obtain ⟨js, rfl⟩ := h
  refine ⟨h2, js, rfl, ?_⟩
  simp only [toks_append, toks_tok, toks_nil] at h1
  rw [List.append_inj_left' h1 rfl]
  exact h3

theorem Spec.EndsIn.ne {t : Tok} {is : List Item} (h : EndsIn t is) : is ≠ [] := by
  obtain ⟨js, rfl⟩ := h; simp

/-- A token just read, as a stream. -/
theorem next_items {l : Lexer} (hg : Good l) {m : Mode} (hm : m.comment = false) (ht : Real (nextSt m l).token) :
    ∃ lost, TookI l (coms lost ++ [.tok (nextTok m l)]) (nextSt m l) ∧ (NoCom l → lost = []) := by
  obtain ⟨is, h1, h2, h3, h4⟩ := (next_took hg hm ht.2.1).seg (ts := []) ht
  obtain ⟨lost, rfl⟩ := endsIn_one h3 h2
  exact ⟨lost, h1, fun h => starts_coms (h4 h)⟩

theorem Took.one {l l' : Lexer} {x : Tok} (h : Took l [x] l') (hr : Real l'.token) :
    ∃ lost, TookI l (coms lost ++ [.tok x]) l' ∧ (NoCom l → lost = []) := by
  obtain ⟨is, h1, h2, h3, h4⟩ := h.seg (ts := []) hr
  obtain ⟨lost, rfl⟩ := endsIn_one h3 h2
  exact ⟨lost, h1, fun h => starts_coms (h4 h)⟩

namespace Parser

theorem CommentsRead.tookI {l l' : Lexer} {cs : List Comment} (h : CommentsRead l cs l') (hg : Good l')
    (hr : ¬ Real l'.token) : TookI l (coms cs) l' := by
  refine ⟨by simpa using h.took hg hr, ?_⟩
  obtain ⟨g, gs, i, p, y, rfl, _⟩ := h
  exact ⟨g, i, p, flow_gap y _⟩

/-- What is known of an inline comment. -/
structure Inline (l : Lexer) (o : Option Comment) (l' : Lexer) : Prop where
  took : TookI l (opt o) l'
  inText : InText l l'.pos.p
  some : ∀ x, o = some x → x.info.pos.line = l.pos.p.line ∧ l'.pos.p.line = l.pos.p.line
  none : o = none → NoComOn l.pos.p.line l' ∧ l'.pos = l.scanner.pos
  read : ∀ x, o = Option.some x → CommentsRead l [x] l'

theorem Inline.nil {l l' : Lexer} {o : Option Comment} (h : Inline l o l') : Took l [] l' := by
  simpa using h.took.took

theorem Inline.behind {l l' l'' : Lexer} {o : Option Comment} (h : Inline l o l') {is : List Item} {n : Int}
    (hn : l.pos.p.line = n) (ht : TookI l' is l'') : Behind n o is :=
  ⟨fun c hc => by rw [(h.some c hc).1, hn], fun ho c hc => by
    have := (h.none ho).1
    rw [hn] at this
    exact this.head ht hc⟩

theorem parseInline_sat {H : Halt → Prop} {E : Err → Lexer → Prop} {l : Lexer} (hg : Good l) :
    Sat H (fun c l' => Inline l c l') E (parseInlineComment l) := by
  unfold parseInlineComment
  rw [sat_position]
  have hr := parseComment_eq hg
  show Sat H _ E (M.bind (M.attempt parseComment) _ l)
  unfold M.bind M.attempt
  rw [hr]
  have hb := back_putBack hg .commentMode
  by_cases h : (nextSt .commentMode l).token = .comment
  · simp only [h, if_true]
    refine sat_ite (fun h1 => ?_) (fun h1 => ?_)
    · refine sat_unNext ?_
      refine ⟨hb.tookI hg, inText_here l, by simp, fun _ => ⟨?_, rfl⟩, by simp⟩
      intro _
      rw [hb.tpos]
      exact fun h => h1 h.symm
    · refine ⟨(commentsRead_next hg h).tookI (good_next hg _) (fun h' => h'.2.2 h), inText_next l _, ?_, by simp,
        by rintro x ⟨⟩; exact commentsRead_next hg h⟩
      rintro x hx
      simp only [Option.some.injEq] at hx
      subst hx
      have h1 : l.pos.p.line = (mkComment (nextSt .commentMode l).text (nextSt .commentMode l).pos).info.pos.line := by
        simpa using h1
      exact ⟨h1.symm, h1.symm⟩
  · simp only [h, if_false]
    exact ⟨hb.tookI hg, inText_here l, by simp, fun _ => ⟨fun h' => absurd (by rw [hb.token] at h'; exact h') h, rfl⟩, by simp⟩

end Parser

section
variable {α : Type} {H : Halt → Prop} {Q : α → Lexer → Prop} {E : Err → Lexer → Prop}

theorem stepI_comments {f : List Comment → P α} {l : Lexer} {l0 : Lexer} {is : List Item}
    (ht : TookI l0 is l)
    (h : ∀ cs l', TookI l0 (is ++ coms cs) l' → NoCom l' → Sat H Q E (f cs l')) :
    Sat H Q E ((Parser.parseComments >>= f) l) := by
  refine Sat.bind (Parser.parseComments_sat ht.good) ?_
  rintro cs l' ⟨h1, h2, h3, h4⟩
  exact h cs l' (ht.trans (h1.tookI h2 h3)) h4

theorem stepI_inline {f : Option Comment → P α} {l : Lexer} {l0 : Lexer} {is : List Item}
    (ht : TookI l0 is l)
    (h : ∀ o l', TookI l0 (is ++ opt o) l' → Parser.Inline l o l' → Sat H Q E (f o l')) :
    Sat H Q E ((Parser.parseInlineComment >>= f) l) := by
  refine Sat.bind (Parser.parseInline_sat ht.good) ?_
  intro o l' h1
  exact h o l' (ht.trans h1.took) h1

end

/-! ## The recorded comments of a stream -/

/-- The scanner has recorded the comments that it has passed, and none that it has not seen. -/
def Recd (l : Lexer) : Prop := ∃ K, Inv K l

theorem TookI.inv {l l' : Lexer} {is : List Item} {K : List Text} (h : TookI l is l') (hK : Inv K l) :
    ∃ T, T.map Text.node = commentsIn is ∧ Inv (K ++ T) l' := by
  obtain ⟨js, c, T, i1, p1, y1, e1, n1, k1⟩ := h.took.recs K hK
  obtain ⟨_, c', i2, p2, y2⟩ := h
  have : c = c' := List.append_cancel_right (i1.symm.trans i2)
  subst this
  obtain rfl := flow_unique y1 y2 e1
  exact ⟨T, n1, k1⟩

theorem TookI.recd {l l' : Lexer} {is : List Item} (h : TookI l is l') (hr : Recd l) : Recd l' := by
  obtain ⟨K, hK⟩ := hr
  obtain ⟨T, _, h⟩ := h.inv hK
  exact ⟨_, h⟩

theorem Took.recd {l l' : Lexer} {ts : List Tok} (h : Took l ts l') (hr : Recd l) : Recd l' := by
  obtain ⟨is, h, _⟩ := h.items
  exact h.recd hr

theorem NoCom.took {l l' : Lexer} (h : NoCom l) (ht : TookI l [] l') : NoCom l' := by
  intro h'
  have := h.starts (ht.trans ((Parser.commentsRead_next ht.good h').tookI (good_next ht.good _) (fun k => k.2.2 h')))
    (by simp [coms])
  obtain ⟨t, js, this⟩ := this
  simp [coms] at this

/-- The offsets of the comments of a stream. -/
theorem flow_offsets {p : SPos} {rest c : Str} {is : List Item} (h : Flow p rest is c) :
    (∀ x, .com x ∈ is → p.p.offset ≤ x.info.pos.offset) ∧ (∀ t, .tok t ∈ is → p.p.offset ≤ t.pos.offset) ∧
    ∀ y, EndsIn y is → (∀ x, .com x ∈ is → x.info.pos.offset < y.pos.offset) ∧
      y.pos.offset < (p.advanceAll c).p.offset := by
  induction h with
  | nil => exact ⟨by simp, by simp, fun y h => absurd rfl h.ne⟩
  | @space p _ ch is c _ _ ih =>
    obtain ⟨h1, h2, h3⟩ := ih
    have := offset_advance p ch
    have e : p.advanceAll [ch] = p.advance ch := rfl
    exact ⟨fun x hx => by have := h1 x hx; omega, fun x hx => by have := h2 x hx; omega, fun y hy => h3 y hy⟩
  | @com p _ raw text is c hc _ ih =>
    obtain ⟨h1, h2, h3⟩ := ih
    obtain ⟨z, rfl⟩ := comment_cons hc
    have := offset_lt (t := '/' :: z) (by simp) p
    refine ⟨?_, ?_, ?_⟩
    · intro x hx
      rcases List.mem_cons.1 hx with hx | hx
      · simp only [Item.com.injEq] at hx
        subst hx
        exact Int.le_refl _
      · have := h1 x hx; omega
    · intro t ht
      have := h2 t (by simpa using ht); omega
    · intro y hy
      have hy' : EndsIn y is := by
        obtain ⟨js, hj⟩ := hy
        cases js with
        | nil => simp at hj
        | cons j js =>
          simp only [List.cons_append, List.cons.injEq] at hj
          exact ⟨js, hj.2⟩
      obtain ⟨k1, k2⟩ := h3 y hy'
      have k3 := h2 y (by obtain ⟨js, rfl⟩ := hy'; simp)
      refine ⟨?_, by rw [SPos.advanceAll_append]; exact k2⟩
      intro x hx
      rcases List.mem_cons.1 hx with hx | hx
      · simp only [Item.com.injEq] at hx
        subst hx
        show p.p.offset < _
        omega
      · exact k1 x hx
  | @tok p _ w is c hw _ _ _ ih =>
    obtain ⟨h1, h2, h3⟩ := ih
    have := offset_lt hw p
    refine ⟨?_, ?_, ?_⟩
    · intro x hx
      have := h1 x (by simpa using hx); omega
    · intro t ht
      rcases List.mem_cons.1 ht with ht | ht
      · simp only [Item.tok.injEq] at ht
        subst ht
        exact Int.le_refl _
      · have := h2 t ht; omega
    · intro y hy
      rw [SPos.advanceAll_append]
      obtain ⟨js, hj⟩ := hy
      cases js with
      | nil =>
        simp only [List.nil_append, List.cons.injEq, Item.tok.injEq] at hj
        obtain ⟨rfl, rfl⟩ := hj
        refine ⟨by simp, ?_⟩
        have := offset_mono c (p.advanceAll w)
        show p.p.offset < _
        omega
      | cons j js =>
        simp only [List.cons_append, List.cons.injEq] at hj
        obtain ⟨k1, k2⟩ := h3 y ⟨js, hj.2⟩
        exact ⟨fun x hx => k1 x (by simpa using hx), k2⟩

/-- The comments recorded between the first and the last token of a stream are those of the stream. -/
theorem mid_exact {l l1 l2 : Lexer} {ts : List Tok} {x y : Tok} {mid : List Item} {a b : SPos} (hr : Recd l)
    (ht : Took l ts l1) (h2 : TookI l (.tok x :: mid) l2) (he : x :: toks mid = ts)
    (hi : l2.scanner.inp = l1.scanner.inp) (hy : EndsIn y mid) (ha : a.p = x.pos) (hb : b.p = y.pos) :
    (l1.findMidComments a b).map (fun c => Parser.mkComment c.literal c.pos) = commentsIn mid := by
  obtain ⟨K, hK⟩ := hr
  obtain ⟨js, c, T, i1, p1, y1, e1, n1, hbf, A, hD, hA⟩ := ht.recs K hK
  obtain ⟨_, c', i2, p2, y2⟩ := h2
  rw [hi] at i2 y2
  have : c = c' := List.append_cancel_right (i1.symm.trans i2)
  subst this
  obtain rfl := flow_unique y1 y2 (by simpa using e1.trans he.symm)
  obtain ⟨k1, k2, k3⟩ := flow_offsets y2
  obtain ⟨k3, k4⟩ := k3 y (by obtain ⟨js, rfl⟩ := hy; exact ⟨.tok x :: js, rfl⟩)
  have k5 := k2 x (by simp)
  have hx : ∀ z, .com z ∈ mid → x.pos.offset < z.info.pos.offset := by
    generalize hz : Item.tok x :: mid = zs at y2
    have : ∀ {p : SPos} {rest c : Str} {zs : List Item}, Flow p rest zs c → Item.tok x :: mid = zs →
        ∀ z, .com z ∈ mid → x.pos.offset < z.info.pos.offset := by
      intro p rest c zs h
      induction h with
      | nil => simp
      | space ch is c _ _ ih => exact ih
      | com => simp
      | @tok p _ w is c hw _ _ hf _ =>
        intro e z hz'
        simp only [List.cons.injEq, Item.tok.injEq] at e
        obtain ⟨rfl, rfl⟩ := e
        have h1 := (flow_offsets hf).1 z hz'
        have h2 := offset_lt hw p
        show p.p.offset < _
        omega
    exact this y2 hz
  have hn : ∀ t ∈ T, .com t.node ∈ mid := by
    intro t ht
    have h1 : t.node ∈ commentsIn (.tok x :: mid) := by rw [← n1]; exact List.mem_map_of_mem ht
    have : ∀ {is : List Item} {c : Comment}, c ∈ commentsIn is → .com c ∈ is := by
      intro is
      induction is with
      | nil => simp [commentsIn]
      | cons i is ih =>
        intro c hc
        cases i with
        | tok t => exact List.mem_cons_of_mem _ (ih hc)
        | com d =>
          rcases List.mem_cons.1 hc with rfl | hc
          · simp
          · exact List.mem_cons_of_mem _ (ih hc)
    exact this (by simpa using h1)
  have hoff : ∀ t : Text, t.node.info.pos.offset = t.off := fun _ => rfl
  unfold Lexer.findMidComments
  rw [hD, List.filter_append, List.filter_append]
  have f1 : K.filter (fun c => decide (a.p.offset < c.pos.p.offset ∧ c.pos.p.offset < b.p.offset)) = [] := by
    rw [List.filter_eq_nil_iff]
    intro t ht
    have : t.pos.p.offset < _ := hK.before t ht
    simp only [decide_eq_true_eq, ha]
    omega
  have f2 : T.filter (fun c => decide (a.p.offset < c.pos.p.offset ∧ c.pos.p.offset < b.p.offset)) = T := by
    rw [List.filter_eq_self]
    intro t ht
    have h1 := hx _ (hn t ht)
    have h2 := k3 _ (List.mem_cons_of_mem _ (hn t ht))
    rw [hoff] at h1 h2
    simp only [decide_eq_true_eq, ha, hb]
    exact ⟨h1, h2⟩
  have f3 : A.filter (fun c => decide (a.p.offset < c.pos.p.offset ∧ c.pos.p.offset < b.p.offset)) = [] := by
    rw [List.filter_eq_nil_iff]
    intro t ht
    have : _ ≤ t.pos.p.offset := ahead_le t (hA.subset ht)
    rw [p1] at this
    simp only [decide_eq_true_eq, hb]
    omega
  rw [f1, f2, f3]
  simp only [List.nil_append, List.append_nil]
  exact n1.trans (by simp)

/-- Whatever happens before, the last part decides. -/
theorem Sat.last {α β : Type} {Q : β → Lexer → Prop} {m : P α} {f : α → P β} {l : Lexer}
    (h : ∀ a l', Sat (fun _ => True) Q (fun _ _ => True) (f a l')) :
    Sat (fun _ => True) Q (fun _ _ => True) ((m >>= f) l) := by
  show Sat _ Q _ (M.bind m f l)
  unfold M.bind
  cases m l with
  | ok a l' => exact h a l'
  | err => trivial
  | halt => trivial

theorem Sat.and {α : Type} {H : Halt → Prop} {Q Q' : α → Lexer → Prop} {E : Err → Lexer → Prop}
    {r : Res Lexer Err α} (h : Sat H Q E r) (h' : Sat (fun _ => True) Q' (fun _ _ => True) r) :
    Sat H (fun a l => Q a l ∧ Q' a l) E r := by
  cases r with
  | ok a l => exact ⟨h, h'⟩
  | err => exact h
  | halt => exact h

/-- `expect` reads a token of the kind. -/
theorem expect_token {nx : P Unit} {t : Token} {s : String} {l : Lexer} :
    Sat (fun _ => True) (fun _ l' => l'.token = t) (fun _ _ => True) (Parser.expect nx t s l) := by
  unfold Parser.expect
  refine Sat.last (fun _ l1 => ?_)
  rw [sat_tok]
  refine sat_ite (fun h => h) (fun _ => trivial)

theorem last_expect {α : Type} {Q : α → Lexer → Prop} {nx : P Unit} {t : Token} {s : String} {f : Unit → P α} {l : Lexer}
    (h : ∀ l', l'.token = t → Sat (fun _ => True) Q (fun _ _ => True) (f () l')) :
    Sat (fun _ => True) Q (fun _ _ => True) ((Parser.expect nx t s >>= f) l) :=
  Sat.bind expect_token (fun _ l' h' => h l' h')

/-- A rune other than a newline does not change the line. -/
theorem advance_line {p : SPos} {c : Char} (h : c ≠ '\n') : (p.advance c).p.line = p.p.line := by
  unfold SPos.advance
  simp [h]

/-- Behind a punctuation mark the line is that of the mark. -/
theorem got_line {m : Mode} (hm : m.comment = false) {t : Token} (h1 : t ≠ .eof) (h2 : t ≠ .illegal)
    {l l' : Lexer} {x : Tok} (h : Got m t l x l') {c : Char}
    (hx : x.text = [c]) (hc : c ≠ '\n') : l'.scanner.pos.p.line = x.pos.line := by
  have h3 := (next_reads hm h.next h1 h2).1
  rw [← h.eq, ← h.text, hx] at h3
  have h3 : (lex m l.scanner.inp).body = [c] := h3
  rw [h.pos, h.eq]
  simp only [nextSt, after_pos, LexOut.raw, h3, SPos.advanceAll_append]
  exact advance_line hc

end Verif
