import Verif.Proofs.Cut

/-!
# Names and constants: what the lexer's reading functions consume
-/

set_option backward.isDefEq.respectTransparency false
set_option backward.dsimp.instances true

namespace Verif
open Spec Scanner Lexer
open M (bind_ok run_get)

variable {sm : Bool}

theorem sat_lexIsEOF {α : Type} {H : Halt → Prop} {Q : α → Lexer → Prop} {E : Err → Lexer → Prop}
    {f : Bool → P α} {l : Lexer} :
    Sat H Q E ((Lexer.isEOF >>= f) l) ↔ Sat H Q E (f (decide (l.token = .eof)) l) := Iff.rfl

theorem Took.nil_trans {l l1 l2 : Lexer} {ts : List Tok} (h1 : Took l ts l1) (h2 : Took l1 [] l2) :
    Took l ts l2 := by simpa using h1.trans h2

/-! ## emptyStatement.go, ConsumeToken -/

theorem readEmptyStatement_eq {l : Lexer} (hg : Good l) :
    readEmptyStatement l = if (nextSt {} l).token = .semicolon then .ok () (nextSt {} l) else
      .err (.single l.scanner.pos.p ";" (.text (nextSt {} l).text)) (putBack {} l) := by
  unfold readEmptyStatement
  refine (bind_ok (run_next hg)).trans ?_
  refine (bind_ok (run_tok _)).trans ?_
  by_cases h : (nextSt {} l).token = .semicolon
  · simp [h]; rfl
  · simp only [h, if_false]
    refine (bind_ok (unNext_nextSt _ _)).trans ?_
    rfl

theorem semicolon_text {m : Mode} {w : Str} (h : Reads m .semicolon w) : w = c!";" := by
  simpa [Reads, spelling, punctuation] using h

theorem readEmptyStatement_sat {H : Halt → Prop} {l : Lexer} (hg : Good l) :
    Sat H (fun _ l' => ∃ t, t.text = c!";" ∧ Took l [t] l' ∧ (nextSt {} l).token = .semicolon ∧
        l'.token = .semicolon ∧ t.pos = l'.pos.p)
      (fun e l' => Fail sm l e l' ∧ l' = putBack {} l ∧ (nextSt {} l).token ≠ .semicolon)
      (readEmptyStatement l) := by
  rw [readEmptyStatement_eq hg]
  by_cases h : (nextSt {} l).token = .semicolon
  · rw [if_pos h]
    obtain ⟨h1, h2⟩ := next_reads (m := {}) rfl h (by simp) (by simp)
    exact ⟨nextTok {} l, h1.trans (semicolon_text h2), next_took hg rfl (by rw [h]; simp), h, h, rfl⟩
  · rw [if_neg h]
    exact ⟨fail_putBack hg {} _ _, rfl, h⟩

theorem consumeToken_eq {l : Lexer} (hg : Good l) (t : Token) :
    consumeToken t l = .ok () (if (nextSt {} l).token = t then nextSt {} l else putBack {} l) := by
  unfold consumeToken
  refine (bind_ok (run_next hg)).trans ?_
  refine (bind_ok (run_tok _)).trans ?_
  by_cases h : (nextSt {} l).token = t
  · simp [h]; rfl
  · simp only [h, if_false]
    exact unNext_nextSt _ _

/-! ## fullIdent.go -/

/-- `{ "." ident }` -/
inductive DotTail : Str → List Str → Prop
  | nil : DotTail [] []
  | cons (w s : Str) (ws : List Str) : Word w → DotTail s ws →
      DotTail (c!"." ++ w ++ s) (c!"." :: w :: ws)

theorem fullIdent_of_tail {w s : Str} {ws : List Str} (hw : Word w) (h : DotTail s ws) :
    FullIdent (w ++ s) (w :: ws) := by
  induction h generalizing w with
  | nil => simpa using .one w hw
  | cons v s ws hv _ ih => 
    have := FullIdent.more w _ _ hw (ih hv)
    simpa using this

theorem dotTail_of_fullIdent {s : Str} {ws : List Str} (h : FullIdent s ws) :
    ∃ w t us, Word w ∧ DotTail t us ∧ s = w ++ t ∧ ws = w :: us := by
  induction h with
  | one w hw => exact ⟨w, [], [], hw, .nil, by simp, rfl⟩
  | more w s ws hw h ih =>
    obtain ⟨v, t, us, hv, ht, rfl, rfl⟩ := ih
    exact ⟨w, _, _, hw, .cons v t us hv ht, by simp, rfl⟩

theorem dotTail_snoc {s : Str} {ws : List Str} (h : DotTail s ws) {w : Str} (hw : Word w) :
    DotTail (s ++ c!"." ++ w) (ws ++ [c!".", w]) := by
  induction h with
  | nil => simpa using DotTail.cons w [] [] hw .nil
  | cons v s ws hv _ ih => simpa using DotTail.cons v _ _ hv ih

theorem readFullIdentLoop_cut {H : Halt → Prop} {B : List Str → Prop} (n : Nat) :
    ∀ {l0 l : Lexer} {ts : List Tok} {acc : Str},
    Took l0 ts l → (nextSt {} l).scanner.inp.length < n →
    (∀ s us, DotTail s us → B (words ts ++ us ++ [c!"."])) →
    Sat H (fun r l' => ∃ s us, r = acc ++ s ∧ DotTail s (words us) ∧ Took l0 (ts ++ us) l')
      (FailC sm B l0) (readFullIdentLoop n acc (nextSt {} l)) := by
  induction n with
  | zero => intro _ _ _ _ _ h; omega
  | succ n ih =>
    intro l0 l ts acc ht hn hB
    unfold readFullIdentLoop
    rw [sat_lexIsEOF]
    refine sat_ite (fun h => ?_) (fun h => ?_)
    · refine ⟨[], [], by simp, .nil, ?_⟩
      simpa using ht.nil_trans (eof_took ht.good (m := {}) rfl (by simpa using h)).1
    rw [sat_tok]
    refine sat_ite (fun h1 => ?_) (fun h1 => ?_)
    · refine sat_unNext ?_
      exact ⟨[], [], by simp, .nil, by simpa using ht.nil_trans (took_putBack ht.good {})⟩
    have hd : (nextSt {} l).token = .dot := by simpa using h1
    obtain ⟨h2, h3⟩ := next_reads (m := {}) rfl hd (by simp) (by simp)
    have hdot : (nextTok {} l).text = c!"." := by
      rw [h2]; simpa [Reads, spelling, punctuation] using h3
    have ht1 := ht.trans (next_took ht.good (m := {}) rfl (by rw [hd]; simp))
    refine sat_next ht1.good ?_
    rw [sat_tok]
    refine sat_ite (fun h4 => lexUnexpected_cut rfl ht1 (by simpa [hdot] using hB _ _ .nil)) (fun h4 => ?_)
    have hi : (nextSt {} (nextSt {} l)).token = .ident := by simpa using h4
    obtain ⟨h5, h6⟩ := next_reads (m := {}) rfl hi (by simp) (by simp)
    have ht2' := next_took ht1.good (m := {}) rfl (by rw [hi]; simp)
    have ht2 := ht1.trans ht2'
    rw [sat_txt]
    refine sat_next ht2.good ?_
    obtain ⟨us, ht3⟩ := any_took ht2.good (m := {}) rfl
    have h7 := ht2'.length
    have h8 := ht3.length
    refine (ih (acc := acc ++ (c!"." ++ (nextSt {} (nextSt {} l)).text)) ht2
      (by simp at h7; omega)
      (fun s us hs => by simpa [hdot] using hB _ _ (.cons _ _ _ (h5 ▸ h6.1) hs))).mono ?_ (fun _ _ h => h)
    rintro r l' ⟨s, us, h9, h10, h11⟩
    refine ⟨c!"." ++ (nextSt {} (nextSt {} l)).text ++ s,
      [nextTok {} l, nextTok {} (nextSt {} l)] ++ us, by rw [h9]; simp, ?_, by simpa using h11⟩
    simp only [List.cons_append, List.nil_append, words_cons, hdot, h5]
    exact .cons _ _ _ h6.1 h10

theorem readFullIdent_cut {H : Halt → Prop} {l : Lexer} (hg : Good l) :
    Sat H (fun r l' => ∃ ts, FullIdent r.1 (words ts) ∧ Took l ts l' ∧
        ∀ t ∈ ts.head?, t.pos = r.2.p)
      (FailC sm (Begins FullIdent) l) (readFullIdent l) := by
  unfold readFullIdent
  refine sat_next hg ?_
  rw [sat_tok]
  refine sat_ite (fun h => lexUnexpected_cut rfl (Took.refl hg) (⟨_, _, .one _ word_a⟩)) (fun h => ?_)
  have hi : (nextSt {} l).token = .ident := by simpa using h
  obtain ⟨h1, h2⟩ := next_reads (m := {}) rfl hi (by simp) (by simp)
  have ht := next_took hg (m := {}) rfl (by rw [hi]; simp)
  rw [sat_position, sat_txt]
  refine sat_next ht.good ?_
  rw [sat_bound]
  refine Sat.bind (readFullIdentLoop_cut _ ht (by omega) ?_) ?_
  · intro s us hs
    exact ⟨_, [c!"a"], by simpa [h1] using fullIdent_of_tail h2.1 (dotTail_snoc hs word_a)⟩
  rintro r l' ⟨s, us, h3, h4, h5⟩
  refine ⟨nextTok {} l :: us, ?_, by simpa using h5, by simp [nextTok]⟩
  simp only [h3, words_cons, h1]
  exact fullIdent_of_tail h2.1 h4

theorem readFullIdent_sat {H : Halt → Prop} {l : Lexer} (hg : Good l) :
    Sat H (fun r l' => ∃ ts, FullIdent r.1 (words ts) ∧ Took l ts l' ∧
        ∀ t ∈ ts.head?, t.pos = r.2.p)
      (FailR sm l) (readFullIdent l) := (readFullIdent_cut hg).toR

/-! ## messageType.go -/

/-- What is read up to the end of the input. -/
theorem readMessageTypeLoop_cut {H : Halt → Prop} {B : List Str → Prop} (n : Nat) : ∀ {l0 l : Lexer} {ts : List Tok}
    {acc : Str}, Took l0 ts l → (nextSt {} l).scanner.inp.length < n →
    (∀ us, (us = [] ∨ ∃ s vs, FullIdent s vs ∧ us = vs ++ [c!"."]) → B (words ts ++ us)) →
    Sat H (fun r l' => (∃ s us, r = acc ++ s ∧ FullIdent s (words us) ∧ Took l0 (ts ++ us) l') ∨
        (l'.scanner.inp = [] ∧ ∃ us, B (words us) ∧ Took l0 us l'))
      (FailC sm B l0) (readMessageTypeLoop n acc (nextSt {} l)) := by
  induction n with
  | zero => intro _ _ _ _ _ h; omega
  | succ n ih =>
    intro l0 l ts acc ht hn hB
    unfold readMessageTypeLoop
    rw [sat_lexIsEOF]
    refine sat_ite (fun h => ?_) (fun h => ?_)
    · have := eof_took ht.good (m := {}) rfl (by simpa using h)
      exact .inr ⟨this.2.1, _, by simpa using hB _ (.inl rfl), ht.nil_trans this.1⟩
    rw [sat_tok]
    refine sat_ite (fun h1 => lexUnexpected_cut rfl ht (by simpa using hB _ (.inl rfl))) (fun h1 => ?_)
    have hi : (nextSt {} l).token = .ident := by simpa using h1
    obtain ⟨h2, h3⟩ := next_reads (m := {}) rfl hi (by simp) (by simp)
    have ht1' := next_took ht.good (m := {}) rfl (by rw [hi]; simp)
    have ht1 := ht.trans ht1'
    rw [sat_txt]
    refine sat_next ht1.good ?_
    rw [sat_tok]
    refine sat_ite (fun h4 => ?_) (fun h4 => ?_)
    · refine sat_unNext ?_
      refine .inl ⟨_, [nextTok {} l], rfl, ?_, ht1.nil_trans (took_putBack ht1.good {})⟩
      simp only [words_cons, words_nil, h2]
      exact .one _ h3.1
    have hd : (nextSt {} (nextSt {} l)).token = .dot := by simpa using h4
    obtain ⟨h5, h6⟩ := next_reads (m := {}) rfl hd (by simp) (by simp)
    have ht2' := next_took ht1.good (m := {}) rfl (by rw [hd]; simp)
    have ht2 := ht1.trans ht2'
    rw [sat_txt]
    refine sat_next ht2.good ?_
    obtain ⟨us, ht3⟩ := any_took ht2.good (m := {}) rfl
    have h7 := ht2'.length
    have h8 := ht3.length
    have hdot : (nextSt {} (nextSt {} l)).text = c!"." := by
      simpa [Reads, spelling, punctuation] using h6
    refine (ih (acc := acc ++ (nextSt {} l).text ++ (nextSt {} (nextSt {} l)).text) ht2
      (by simp at h7; omega) ?_).mono ?_ (fun _ _ h => h)
    · intro us hu
      have := hB ((nextSt {} l).text :: c!"." :: us) (.inr ?_)
      · simpa [h2, h5, hdot] using this
      · rcases hu with rfl | ⟨s, vs, hs, rfl⟩
        · exact ⟨_, _, .one _ h3.1, rfl⟩
        · exact ⟨_, _, .more _ _ _ h3.1 hs, rfl⟩
    rintro r l' (⟨s, us, h9, h10, h11⟩ | h9)
    · refine .inl ⟨(nextSt {} l).text ++ c!"." ++ s,
        [nextTok {} l, nextTok {} (nextSt {} l)] ++ us, by rw [h9, hdot]; simp, ?_,
        by simpa using h11⟩
      simp only [List.cons_append, List.nil_append, words_cons, h2, h5, hdot]
      exact .more _ _ _ h3.1 h10
    · exact .inr h9

theorem sat_leadingDot {H : Halt → Prop} {l : Lexer} (hg : Good l) {E : Err → Lexer → Prop} :
    Sat H (fun r l' => ∃ ts, ((r = [] ∧ ts = []) ∨ (r = c!"." ∧ words ts = [c!"."] ∧
        ∀ t ∈ ts.head?, t.pos = (nextSt {} l).pos.p)) ∧ Took l ts l') E
      (readLeadingDot (nextSt {} l)) := by
  unfold readLeadingDot
  rw [sat_tok]
  refine sat_ite (fun h => ?_) (fun h => ?_)
  · obtain ⟨h1, h2⟩ := next_reads (m := {}) rfl h (by simp) (by simp)
    have hd : (nextSt {} l).text = c!"." := by simpa [Reads, spelling, punctuation] using h2
    exact ⟨[nextTok {} l], .inr ⟨hd, by simp [h1, hd], by simp [nextTok]⟩,
      next_took hg rfl (by rw [h]; simp)⟩
  · refine sat_unNext ?_
    exact ⟨[], .inl ⟨rfl, rfl⟩, took_putBack hg _⟩

/-- A message type, or the beginning of one at the end of the input. -/
theorem readMessageType_cut {H : Halt → Prop} {l : Lexer} (hg : Good l) :
    Sat H (fun r l' => ∃ ts, Partly MessageType r.1 l' (words ts) ∧ Took l ts l' ∧
        (ts ≠ [] → r.2 = (nextSt {} l).pos))
      (FailC sm (Begins MessageType) l) (readMessageType l) := by
  unfold readMessageType
  refine sat_next hg ?_
  rw [sat_position]
  refine Sat.bind (sat_leadingDot hg) ?_
  rintro r l1 ⟨ts, h1, ht⟩
  refine sat_next ht.good ?_
  rw [sat_bound]
  refine Sat.bind (readMessageTypeLoop_cut _ ht (by omega) ?_) ?_
  · have key : ∀ us, (us = [] ∨ ∃ s vs, FullIdent s vs ∧ us = vs ++ [c!"."]) → ∃ s, FullIdent s (us ++ [c!"a"]) := by
      rintro us (rfl | ⟨s, vs, hs, rfl⟩)
      · exact ⟨_, .one _ word_a⟩
      · obtain ⟨w, t, us, hw, ht, _, rfl⟩ := dotTail_of_fullIdent hs
        exact ⟨_, by simpa using fullIdent_of_tail hw (dotTail_snoc ht word_a)⟩
    intro us hu
    obtain ⟨s, hs⟩ := key us hu
    rcases h1 with ⟨rfl, rfl⟩ | ⟨rfl, h1, _⟩
    · exact ⟨_, [c!"a"], .plain _ _ (by simpa using hs)⟩
    · exact ⟨_, [c!"a"], by rw [h1]; simpa using MessageType.dot _ _ hs⟩
  rintro s l2 (⟨u, us, h2, h3, h4⟩ | ⟨h2, us, h5, h3⟩)
  · refine ⟨ts ++ us, .inl ?_, h4, fun _ => rfl⟩
    rcases h1 with ⟨rfl, rfl⟩ | ⟨rfl, h1, _⟩
    · rw [h2]; exact .plain _ _ h3
    · rw [h2, words_append, h1]; exact .dot _ _ h3
  · exact ⟨us, .inr ⟨h2, h5⟩, h3, fun _ => rfl⟩

theorem readMessageType_sat {H : Halt → Prop} {l : Lexer} (hg : Good l) :
    Sat H (fun r l' => ∃ ts, Partly MessageType r.1 l' (words ts) ∧ Took l ts l' ∧
        (ts ≠ [] → r.2 = (nextSt {} l).pos))
      (FailR sm l) (readMessageType l) := (readMessageType_cut hg).toR

/-! ## constant.go -/

theorem mergeLoop_sat {H : Halt → Prop} {q : Char} {E : Err → Lexer → Prop} (n : Nat) :
    ∀ {l0 l : Lexer} {ts : List Tok} {acc : Str}, Took l0 ts l →
    (nextSt .lit l).scanner.inp.length < n →
    ((nextSt .lit l).token = .strLit → (nextSt .lit l).scanner.inp.length + 1 < n) →
    Sat H (fun r l' => ∃ us l1, r = acc ++ ((words us).map (stripQuotes q)).flatten ∧
        (∀ w ∈ words us, StrLit w) ∧ Took l0 (ts ++ us) l1 ∧ l' = nextSt .lit l1 ∧
        ((nextSt .lit l).token = .strLit → us ≠ [] ∧ us.head? = some (nextTok .lit l)))
      E (mergeLoop q n acc (nextSt .lit l)) := by
  induction n with
  | zero => intro _ _ _ _ _ h; omega
  | succ n ih =>
    intro l0 l ts acc ht hn hn'
    unfold mergeLoop
    rw [sat_tok]
    refine sat_ite (fun h => ?_) (fun h => ?_)
    · obtain ⟨h1, h2⟩ := next_reads (m := .lit) rfl h (by simp) (by simp)
      have ht1' := next_took ht.good (m := .lit) rfl (by rw [h]; simp)
      have ht1 := ht.trans ht1'
      rw [sat_txt]
      refine sat_nextWith ht1.good ?_
      have hn1 := hn' h
      obtain ⟨_, ht2⟩ := any_took ht1.good (m := .lit) rfl
      have h8 := ht2.length
      refine (ih (acc := acc ++ trim (nextSt .lit l).text q) ht1 (by omega) ?_).mono ?_
        (fun _ _ h => h)
      · intro h0
        have := (next_took ht1.good (m := .lit) rfl (by rw [h0]; simp)).length
        simp at this; omega
      rintro r l' ⟨us, l1, h3, h4, h5, h6, _⟩
      refine ⟨nextTok .lit l :: us, l1, ?_, ?_, by simpa using h5, h6, fun _ => by simp⟩
      · rw [h3]; simp [h1, stripQuotes, trim]
      · intro w hw
        simp only [words_cons, List.mem_cons] at hw
        rcases hw with rfl | hw
        · rw [h1]; exact h2
        · exact h4 w hw
    · exact ⟨[], l, by simp, by simp, by simpa using ht, rfl, fun h' => absurd h' h⟩

theorem int_one : IntLit c!"1" := .decimal '1' [] (by simp [decimals]) (by simp) (by simp [Over])

theorem readConstant_cut {H : Halt → Prop} {l : Lexer} (hg : Good l) (pm loose junk : Bool) :
    Sat H (fun r l' => ∃ ts, Constant ⟨pm, loose, junk⟩ r.1 (words ts) ∧ Took l ts l' ∧
        ∀ t ∈ ts.head?, t.pos = r.2.p)
      (FailC sm (Begins (Constant ⟨pm, loose, junk⟩)) l) (readConstant pm l) := by
  have hnil : Begins (Constant ⟨pm, loose, junk⟩) [] := ⟨_, _, .number _ (.inl int_one)⟩
  unfold readConstant
  refine sat_nextWith hg ?_
  rw [sat_position, sat_txt, sat_tok]
  refine sat_ite (fun h => ?_) (fun h => ?_)
  · obtain ⟨h1, h2⟩ := next_reads (m := .lit) rfl h (by simp) (by simp)
    have ht := next_took hg (m := .lit) rfl (by rw [h]; simp)
    refine sat_ite (fun hp => ?_) (fun hp => ?_)
    · unfold mergeMultilineStrLit
      refine Sat.bind (Q := fun r l' => ∃ us, r = joinStrings (words us) ∧
        (∀ w ∈ words us, StrLit w) ∧ Took l us l' ∧ us.head? = some (nextTok .lit l)) ?_ ?_
      · rw [sat_txt, sat_bound]
        refine Sat.bind (mergeLoop_sat _ (Took.refl hg) (by omega) (fun _ => by omega)) ?_
        rintro b l' ⟨us, l1, h3, h4, h5, rfl, h6⟩
        refine sat_unNext ?_
        refine ⟨us, ?_, h4, by simpa using h5.nil_trans (took_putBack h5.good _), (h6 h).2⟩
        obtain ⟨t, us', rfl⟩ : ∃ t us', us = t :: us' := by
          cases us with
          | nil => exact absurd rfl (h6 h).1
          | cons t us' => exact ⟨t, us', rfl⟩
        have h7 := (h6 h).2
        simp only [List.head?_cons, Option.some.injEq] at h7
        subst h7
        rw [h3]
        simp only [joinStrings, words_cons, h1, mergeQuote, List.headD_cons, List.append_assoc]
      · rintro r l' ⟨us, h3, h4, h5, h6⟩
        refine ⟨us, ?_, h5, ?_⟩
        · rw [h3]
          refine .strs _ hp ?_ h4
          cases us with
          | nil => simp at h6
          | cons => simp
        · rw [h6]; simp [nextTok]
    · exact ⟨[nextTok .lit l], by simp only [words_cons, words_nil, h1]; exact .str _ (by simpa using hp) h2,
        ht, by simp [nextTok]⟩
  refine sat_ite (fun h1 => ?_) (fun h1 => ?_)
  · obtain ⟨h1', h2⟩ := next_reads (m := .lit) rfl h1 (by simp) (by simp)
    have ht := next_took hg (m := .lit) rfl (by rw [h1]; simp)
    exact ⟨[nextTok .lit l], by simp only [words_cons, words_nil, h1']; exact .bool _ h2, ht,
      by simp [nextTok]⟩
  refine sat_ite (fun h2 => ?_) (fun h2 => ?_)
  · obtain ⟨_, h3⟩ := next_reads (m := .lit) rfl h2 (by simp) (by simp)
    refine sat_unNext ?_
    have hhead : ∀ {ts l'}, Took l ts l' → ∀ w ∈ (words ts).head?, Word w →
        w ≠ c!"true" ∧ w ≠ c!"false" ∧ w ≠ c!"inf" ∧ w ≠ c!"nan" := by
      intro ts l' h7 w hw hx
      cases ts with
      | nil => simp at hw
      | cons t ts =>
        simp only [words_cons, List.head?_cons, Option.mem_def, Option.some.injEq] at hw
        subst hw
        have h9 := (took_word h7 hx (m := .lit) rfl).2
        rw [h9] at h3
        exact ⟨(h3.2.2.1 rfl).1, (h3.2.2.1 rfl).2, (h3.2.2.2 rfl).1, (h3.2.2.2 rfl).2⟩
    refine (readFullIdent_cut (sm := sm) (good_putBack hg .lit)).mono ?_ ?_
    · rintro r l' ⟨ts, h4, h5, h6⟩
      have h7 : Took l ts l' := (took_putBack hg .lit).trans h5
      refine ⟨ts, .name _ _ h4 ?_, h7, h6⟩
      obtain ⟨w, t, us, hw, _, _, h8⟩ := dotTail_of_fullIdent h4
      have := hhead h7
      rw [h8] at this ⊢
      intro v hv
      have hv' : w = v := by simpa using hv
      exact this v hv (hv' ▸ hw)
    · intro e l' he
      refine he.taken.trans (took_putBack hg .lit) (fun ws _ => ?_)
      rintro ⟨⟨s, more, k3⟩, ts, l2, rfl, k2⟩
      have k2 : Took l ts l2 := (took_putBack hg .lit).trans k2
      have := hhead k2
      obtain ⟨w, t, us, hw, _, _, h8⟩ := dotTail_of_fullIdent k3
      rw [words_nil, List.nil_append]
      cases hts : words ts with
      | nil => exact hnil
      | cons v vs =>
        rw [hts] at h8 k3 this
        simp only [List.cons_append, List.cons.injEq] at h8
        obtain ⟨rfl, _⟩ := h8
        exact ⟨_, _, .name _ _ k3 (by simpa using this v rfl hw)⟩
  refine sat_ite (fun h3 => ?_) (fun h3 => ?_)
  · have ht := next_took hg (m := .lit) rfl (by rcases h3 with h3 | h3 <;> rw [h3] <;> simp)
    refine ⟨[nextTok .lit l], ?_, ht, by simp [nextTok]⟩
    rcases h3 with h3 | h3 <;>
      obtain ⟨h4, h5⟩ := next_reads (m := .lit) rfl h3 (by simp) (by simp) <;>
      simp only [words_cons, words_nil, h4]
    · exact .number _ (.inl h5)
    · exact .number _ (.inr h5)
  refine sat_ite (fun h4 => ?_) (fun h4 => lexUnexpected_cut rfl (Took.refl hg) (hnil))
  have hne : (nextSt .lit l).text ≠ [] := by rcases h4 with h4 | h4 <;> rw [h4] <;> simp
  have h5 := next_text (l := l) (m := .lit) rfl hne
  have hnf : (nextSt .lit l).token ≠ .eof := fun h => hne (eof_took hg (m := .lit) rfl h).2.2
  have ht := next_took hg (m := .lit) rfl hnf
  refine sat_nextWith ht.good ?_
  rw [sat_tok]
  refine sat_ite (fun h6 => ?_) (fun h6 => lexUnexpected_cut rfl ht ?_)
  rotate_left
  · exact ⟨_, [c!"1"], by simpa [h5] using Constant.signed (G := ⟨pm, loose, junk⟩) _ _ h4 (.inl int_one)⟩
  rw [sat_txt]
  have ht2 := next_took ht.good (m := .lit) rfl (by rcases h6 with h6 | h6 <;> rw [h6] <;> simp)
  refine ⟨_, ?_, ht.trans ht2, by simp [nextTok]⟩
  simp only [List.cons_append, List.nil_append, words_cons, words_nil, h5]
  rcases h6 with h6 | h6 <;>
    obtain ⟨h7, h8⟩ := next_reads (m := .lit) rfl h6 (by simp) (by simp) <;>
    rw [h7]
  · exact .signed _ _ h4 (.inl h8)
  · exact .signed _ _ h4 (.inr h8)

theorem readConstant_sat {H : Halt → Prop} {l : Lexer} (hg : Good l) (pm loose junk : Bool) :
    Sat H (fun r l' => ∃ ts, Constant ⟨pm, loose, junk⟩ r.1 (words ts) ∧ Took l ts l' ∧
        ∀ t ∈ ts.head?, t.pos = r.2.p)
      (FailR sm l) (readConstant pm l) := (readConstant_cut hg pm loose junk).toR

end Verif
