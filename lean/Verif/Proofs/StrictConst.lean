import Verif.Proofs.StrictParse

/-!
# A strict run beside a permissive one: constants, options and fields
-/

set_option backward.isDefEq.respectTransparency false
set_option backward.dsimp.instances true

namespace Verif
open Spec Scanner Lexer Parser

variable {W V : Lexer → Prop}

/-- What mode 0 reads where another mode reads something that starts with a punctuation mark. -/
theorem lex_plain {m : Mode} (hm : m.comment = false) {u w : Str} {c : Char}
    (h1 : isSpace c = false ∧ c ≠ '/' ∧ isLetter c = false ∧ c ≠ '_') (h : (lex m u).body = c :: w) :
    (lex {} u).gap = (lex m u).gap ∧ (lex {} u).body = [c] ∧ (lex {} u).token = asMiscToken c := by
  obtain ⟨g, cs, x, e1, e2, e3, e4⟩ := lex_solid (m := m) hm u
  have hd := drop_raw m u
  have hr : (lex m u).raw = g ++ c :: w := by rw [LexOut.raw, e3, h]
  rw [hr] at hd
  obtain ⟨y, hx⟩ : ∃ y, x = c :: y := by
    have := e1.symm.trans hd
    simp only [List.append_assoc] at this
    exact ⟨_, List.append_cancel_left this⟩
  have hl := lex_gap (m := {}) (rest := x) (g := g) (cs := cs) e2
  rw [← e1] at hl
  have hs := lex_single (m := {}) y h1 (fun _ => rfl) (fun _ => rfl)
  rw [hl, hx, hs, e3]
  exact ⟨by simp, rfl, rfl⟩

theorem body_text {m : Mode} (hm : m.comment = false) {u : Str} {t : Token} (ht : (lex m u).token = t) (h1 : t ≠ .eof)
    (h2 : t ≠ .illegal) : (lex m u).body = (lex m u).text ∧ Reads m t (lex m u).text :=
  next_reads hm (l := Lexer.new u []) ht h1 h2

/-- A quote is next. -/
structure AtQuote (l : Lexer) : Prop where
  good : Good l
  quote : (nextSt {} l).token = .quote

theorem quote_of_str {u : Str} (h : (lex .lit u).token = .strLit) : (lex {} u).token = .quote := by
  obtain ⟨h1, h2⟩ := body_text (m := .lit) rfl h (by simp) (by simp)
  obtain ⟨q, b, hq, _, hb⟩ := h2
  rw [hb] at h1
  have := lex_plain (m := .lit) rfl (c := q) (by rcases hq with rfl | rfl <;> decide) h1
  rw [this.2.2]
  rcases hq with rfl | rfl <;> decide

theorem quote_expect {α : Type} {t : Token} {s : String} (ht : t ≠ .quote) (f : Unit → P α) :
    Run AtQuote V Doomed (expect next t s >>= f) := by
  refine ⟨fun l hl => ?_⟩
  have h1 : expect next t s l = .err (.single (nextSt {} l).pos.p s
      (.token (nextSt {} l).text (nextSt {} l).token (nextSt {} l).pos.p)) (nextSt {} l) := by
    unfold expect
    rw [bind_run (run_next hl.good)]
    show (if (nextSt {} l).token = t then _ else _ : P Unit) _ = _
    rw [if_neg (by rw [hl.quote]; exact fun h => ht h.symm)]
    rfl
  show Sat _ _ _ (M.bind _ f l)
  unfold M.bind
  rw [h1]
  exact doomed_next hl.good (.inr (.inr (.inr hl.quote)))

theorem quote_back {l : Lexer} (h : AtQuote l) : AtQuote (putBack {} l) := ⟨good_putBack h.good _, h.quote⟩

/-! ## Constants -/

theorem dropWhile_head {p : Char → Bool} (x : Str) (c : Char) (h : (x.dropWhile p).head? = some c) : p c = false := by
  have := List.head?_dropWhile_not p x
  rw [h] at this
  exact this

theorem requote {x b : Str} {q : Char} (hq : q = '"' ∨ q = '\'') (hx : x = q :: b) :
    Requoted x (q :: trim x q ++ [q]) := by
  have hr : ∀ y : Str, y.takeWhile (· = q) = List.replicate (y.takeWhile (· = q)).length q := by
    intro y
    refine List.eq_replicate_of_mem fun c hc => ?_
    simpa using List.all_eq_true.1 (List.all_takeWhile (p := (· = q)) (l := y)) c hc
  have h1 := (List.takeWhile_append_dropWhile (p := (· = q)) (l := x)).symm
  have h2 := (List.takeWhile_append_dropWhile (p := (· = q)) (l := (x.dropWhile (· = q)).reverse)).symm
  have h3 : x.dropWhile (· = q) = trim x q ++
      List.replicate ((x.dropWhile (· = q)).reverse.takeWhile (· = q)).length q := by
    have := congrArg List.reverse h2
    rw [List.reverse_reverse, List.reverse_append, hr, List.reverse_replicate] at this
    exact this
  refine ⟨q, trim x q, (x.takeWhile (· = q)).length, ((x.dropWhile (· = q)).reverse.takeWhile (· = q)).length,
    hq, ?_, ?_, ?_, ?_, rfl⟩
  · rw [hx]; simp
  · intro h
    have h4 : (x.dropWhile (· = q)).head? = some q := by
      rw [h3]
      cases ht : trim x q with
      | nil => rw [ht] at h; simp at h
      | cons c t => rw [ht] at h; simpa using h
    simpa using dropWhile_head _ _ h4
  · intro h
    rw [trim, List.getLast?_reverse] at h
    simpa using dropWhile_head _ _ h
  · rw [List.append_assoc, ← h3, ← hr]
    exact h1

theorem strLit_quote {x : Str} (h : StrLit x) : ∃ q b, (q = '"' ∨ q = '\'') ∧ x = q :: b ∧ mergeQuote x = q := by
  obtain ⟨q, b, hq, _, hb⟩ := h
  refine ⟨q, b ++ [q], hq.symm, by simpa using hb, ?_⟩
  rw [hb]
  rcases hq with rfl | rfl <;> rfl

/-- Related constants in related states. -/
def QConst (a b : Str × SPos) (l l' : Lexer) : Prop := RelaxedConst a.1 b.1 ∧ a.2 = b.2 ∧ Near l l'

theorem full_nextWith {l l' : Lexer} (h : Near l l') (m : Mode) : Full (nextSt m l) (nextSt m l') := by
  have := (asim_nextWith (W := Never) m).run l l' h
  rw [run_nextWith h.good, run_nextWith h.good'] at this
  rcases this with ⟨b, l2, h1, h2⟩ | h
  · injection h1 with _ h1
    rw [h1]
    exact h2.2
  · exact h.elim

theorem near_putBack {l l' : Lexer} (h : Near l l') (m : Mode) : Near l (putBack m l') :=
  ⟨h.good, good_putBack h.good' m, h.inp, h.pos⟩

theorem merge_eq {l : Lexer} (hg : Good l) (ht : l.token = .strLit) (hn : (nextSt .lit l).token ≠ .strLit) :
    mergeMultilineStrLit l = .ok (mergeQuote l.text :: trim l.text (mergeQuote l.text) ++ [mergeQuote l.text])
      (putBack .lit l) := by
  unfold mergeMultilineStrLit
  show M.bind (mergeLoop _ _ _) _ l = _
  have : mergeLoop (mergeQuote l.text) (l.scanner.inp.length + 1 + 1) [mergeQuote l.text] l =
      .ok ([mergeQuote l.text] ++ trim l.text (mergeQuote l.text)) (nextSt .lit l) := by
    rw [mergeLoop]
    show (if l.token = .strLit then _ else _ : P Str) l = _
    rw [if_pos ht]
    show M.bind nextLit _ l = _
    unfold M.bind nextLit
    rw [run_nextWith hg]
    simp only
    rw [mergeLoop]
    show (if (nextSt .lit l).token = .strLit then _ else _ : P Str) _ = _
    rw [if_neg hn]
    rfl
  unfold M.bind
  rw [this]
  simp only
  show M.bind unNext _ _ = _
  unfold M.bind
  rw [unNext_nextSt]
  rfl

theorem asim_readConstant : ASim Near QConst AtQuote (readConstant false) (readConstant true) := by
  refine ⟨fun l l' h => ?_⟩
  have hf := full_nextWith h .lit
  have hr := run_nextWith h.good .lit
  have hr' := run_nextWith h.good' .lit
  by_cases ht : (nextSt .lit l).token = .strLit
  · have ht' := hf.rel.token ▸ ht
    have e1 : readConstant false l = .ok ((nextSt .lit l).text, (nextSt .lit l).pos) (nextSt .lit l) := by
      unfold readConstant nextLit
      rw [bind_run hr]
      show (if (nextSt .lit l).token = .strLit then _ else _ : P _) _ = _
      rw [if_pos ht]
      rfl
    rw [e1]
    by_cases hq : (nextSt .lit (nextSt .lit l)).token = .strLit
    · exact .inr ⟨hf.good, quote_of_str hq⟩
    · have hf2 := full_nextWith hf.near .lit
      have hq' := hf2.rel.token ▸ hq
      have e2 : readConstant true l' =
          .ok (mergeQuote (nextSt .lit l').text :: trim (nextSt .lit l').text (mergeQuote (nextSt .lit l').text) ++
            [mergeQuote (nextSt .lit l').text], (nextSt .lit l').pos) (putBack .lit (nextSt .lit l')) := by
        unfold readConstant nextLit
        rw [bind_run hr']
        show (if (nextSt .lit l').token = .strLit then _ else _ : P _) _ = _
        rw [if_pos ht', if_pos rfl, bind_run (merge_eq hf.good' ht' hq')]
        rfl
      refine .inl ⟨_, _, e2, ?_, hf.rel.pos, near_putBack hf.near _⟩
      obtain ⟨_, h2⟩ := body_text (m := .lit) rfl ht (by simp) (by simp)
      obtain ⟨q, b, hq, hx, hm⟩ := strLit_quote h2
      refine .inr ?_
      show Requoted (nextSt .lit l).text _
      rw [← show (nextSt .lit l).text = (nextSt .lit l').text from hf.rel.text,
        show mergeQuote (nextSt .lit l).text = q from hm]
      exact requote hq hx
  · have ht' : ¬ (nextSt .lit l').token = .strLit := hf.rel.token ▸ ht
    have key : ASim Full (Both Eq Full) AtQuote
        (do let startPos ← position
            let cons ← txt
            let t ← tok
            if t = .boolLit then
              return (cons, startPos)
            else if t = .ident then
              unNext
              readFullIdent
            else if t = .intLit ∨ t = .floatLit then
              return (cons, startPos)
            else if cons = c!"-" ∨ cons = c!"+" then
              nextWith .lit
              let t ← tok
              if t = .intLit ∨ t = .floatLit then
                let x ← txt
                return (cons ++ x, startPos)
              else
                Lexer.unexpected "TINTLIT or TFLOATLIT"
            else
              Lexer.unexpected "constant")
        (do let startPos ← position
            let cons ← txt
            let t ← tok
            if t = .boolLit then
              return (cons, startPos)
            else if t = .ident then
              unNext
              readFullIdent
            else if t = .intLit ∨ t = .floatLit then
              return (cons, startPos)
            else if cons = c!"-" ∨ cons = c!"+" then
              nextWith .lit
              let t ← tok
              if t = .intLit ∨ t = .floatLit then
                let x ← txt
                return (cons ++ x, startPos)
              else
                Lexer.unexpected "TINTLIT or TFLOATLIT"
            else
              Lexer.unexpected "constant") := by asim
    have := key.run _ _ hf
    have e1 : ∀ b l, (hg : Good l) → ¬ (nextSt .lit l).token = .strLit → readConstant b l =
        (do let startPos ← position
            let cons ← txt
            let t ← tok
            if t = .boolLit then
              return (cons, startPos)
            else if t = .ident then
              unNext
              readFullIdent
            else if t = .intLit ∨ t = .floatLit then
              return (cons, startPos)
            else if cons = c!"-" ∨ cons = c!"+" then
              nextWith .lit
              let t ← tok
              if t = .intLit ∨ t = .floatLit then
                let x ← txt
                return (cons ++ x, startPos)
              else
                Lexer.unexpected "TINTLIT or TFLOATLIT"
            else
              Lexer.unexpected "constant" : P (Str × SPos)) (nextSt .lit l) := by
      intro b l hg ht
      unfold readConstant nextLit
      rw [bind_run (run_nextWith hg .lit)]
      show (if (nextSt .lit l).token = .strLit then _ else _ : P _) _ = _
      rw [if_neg ht]
      rfl
    rw [e1 _ _ h.good ht, e1 _ _ h.good' ht']
    exact this.mono (fun a b l l' h => ⟨.inl (by rw [h.1]), by rw [h.1], h.2.near⟩) (fun _ h => h)

theorem asim_peekBar {α β : Type} {Q : α → β → Lexer → Lexer → Prop} {f : Token → P α} {f' : Token → P β}
    (B : Token → Prop) (hB : ∀ t, B t → Bars t) (hf : ∀ t, ¬ B t → ASim Full Q W (f t) (f' t))
    (hd : ∀ t, B t → Run Doomed W Doomed (f t)) : ASim Near Q W (Lexer.peek >>= f) (Lexer.peek >>= f') := by
  refine ⟨fun l l' h => ?_⟩
  have e : ∀ l, Good l → Lexer.peek l = .ok (nextSt {} l).token (putBack {} l) := by
    intro l hg
    unfold Lexer.peek
    rw [bind_run (run_next hg), bind_run (m := tok) (l' := nextSt {} l) (a := (nextSt {} l).token) rfl,
      bind_run (unNext_nextSt {} l)]
    rfl
  rw [bind_run (e l h.good), bind_run (e l' h.good')]
  have hf2 := full_nextWith h {}
  by_cases hb : B (nextSt {} l).token
  · exact ARes.lone ((hd _ hb).sat _ (doomed_putBack h.good (hB _ hb))) _
  · rw [← show (nextSt {} l).token = (nextSt {} l').token from hf2.rel.token]
    refine (hf _ hb).run _ _ ?_
    have := (asim_unNext (W := Never)).run _ _ hf2
    rw [unNext_nextSt, unNext_nextSt] at this
    rcases this with ⟨_, _, h1, h2⟩ | h
    · injection h1 with _ h1
      rw [h1]; exact h2.2
    · exact h.elim

def QStr (a b : Str) (l l' : Lexer) : Prop := RelaxedConst a b ∧ Near l l'

section
variable {b : Bool} {n n' : Nat}

theorem asim_optionConstant (k : Nat) :
    ASim Near QStr AtQuote (optionConstant ⟨false, b, n⟩ k) (optionConstant ⟨true, b, n'⟩ k) := by
  cases k with
  | zero => exact ASim.stop
  | succ k =>
    unfold optionConstant
    refine asim_peekBar (fun t => t = .leftCurly ∨ t = .leftSquare)
      (fun t h => h.elim .inl fun h => .inr (.inl h)) (fun t ht => ?_) (fun t ht => ?_)
    · rw [if_neg (fun h => ht (.inl h)), if_neg (fun h => ht (.inr h)), if_neg (fun h => ht (.inl h)),
        if_neg (fun h => ht (.inr h))]
      refine ASim.bindQ (asim_readConstant.pre fun _ _ h => h.near) (fun a b => ?_) (fun a => ⟨fun l h => h⟩)
      obtain ⟨a, p⟩ := a
      obtain ⟨b, q⟩ := b
      exact ASim.pure fun _ _ h => ⟨h.1, h.2.2⟩
    · rcases ht with rfl | rfl
      · exact doom_perr _
      · exact doom_perr _

theorem asim_constant :
    ASim Near QStr AtQuote (parseOptionConstant ⟨false, b, n⟩) (parseOptionConstant ⟨true, b, n'⟩) := by
  unfold parseOptionConstant
  refine asim_bound.bind fun k _ h => ?_
  subst h
  exact asim_optionConstant k

/-! ## Names of options -/

/-- A dot is next. -/
structure AtDot (l : Lexer) : Prop where
  good : Good l
  dot : (nextSt {} l).token = .dot

theorem asim_nameDot :
    ASim Full (Both Eq Near) AtDot (optionNameDot ⟨false, b, n⟩) (optionNameDot ⟨true, b, n'⟩) := by
  refine ⟨fun l l' h => ?_⟩
  have e1 : optionNameDot ⟨false, b, n⟩ l = .ok [] l := rfl
  rw [e1]
  have hf := full_nextWith h.near {}
  by_cases hd : (nextSt {} l).token = .dot
  · exact .inr ⟨h.good, hd⟩
  · have e2 : optionNameDot ⟨true, b, n'⟩ l' = .ok [] (putBack {} l') := by
      unfold optionNameDot
      rw [if_pos rfl, bind_run (run_next h.good')]
      show (if (nextSt {} l').token = .dot then _ else _ : P _) _ = _
      rw [if_neg (hf.rel.token ▸ hd)]
      show M.bind unNext _ _ = _
      unfold M.bind
      rw [unNext_nextSt]
      rfl
    exact .inl ⟨_, _, e2, rfl, near_putBack h.near _⟩

theorem dot_ident {α : Type} (f : Str × SPos → P α) : Run AtDot V Doomed (readFullIdent >>= f) := by
  refine ⟨fun l hl => ?_⟩
  have h1 : readFullIdent l = .err (.single (nextSt {} l).pos.p "TIDENT" (.text (nextSt {} l).text)) (nextSt {} l) := by
    unfold readFullIdent
    rw [bind_run (run_next hl.good)]
    show (if (nextSt {} l).token ≠ .ident then _ else _ : P _) _ = _
    rw [if_pos (by rw [hl.dot]; simp)]
    rfl
  show Sat _ _ _ (M.bind _ f l)
  unfold M.bind
  rw [h1]
  exact doomed_next hl.good (.inr (.inr (.inl hl.dot)))

theorem asim_namePart (s : String) :
    ASim Full (Both Eq Full) W (optionNamePart ⟨false, b, n⟩ s) (optionNamePart ⟨true, b, n'⟩ s) := by
  unfold optionNamePart
  refine asim_tok.bind fun t _ h => ?_
  subst h
  refine asim_txt.bind fun x _ h => ?_
  subst h
  refine ASim.ite (by asim) (ASim.ite ?_ (by asim))
  refine ASim.bindQ asim_nameDot (fun d d' => ?_) (fun d => dot_ident _)
  by_cases hd : d = d'
  · subst hd
    refine ASim.pre (I := Near) (fun _ _ h => h.2) ?_
    asim
  · exact ASim.false fun _ _ h => hd h.1
macro_rules | `(tactic| alem) => `(tactic| exact asim_namePart _)

theorem asim_nameLoop (k : Nat) : ∀ x : Str,
    ASim Near (Both Eq Full) W (optionNameLoop ⟨false, b, n⟩ k x) (optionNameLoop ⟨true, b, n'⟩ k x) := by
  induction k with
  | zero => intro x; exact ASim.stop
  | succ k ih => intro x; unfold optionNameLoop; asim; exact (ih _).ofF
macro_rules | `(tactic| alem) => `(tactic| exact asim_nameLoop _ _)

theorem asim_name :
    ASim Near (Both Eq Full) W (parseOptionName ⟨false, b, n⟩) (parseOptionName ⟨true, b, n'⟩) := by
  unfold parseOptionName; asim
macro_rules | `(tactic| alem) => `(tactic| exact asim_name)

theorem asim_option :
    ASim Near (Both RelaxedOption Full) W (parseOption ⟨false, b, n⟩) (parseOption ⟨true, b, n'⟩) := by
  unfold parseOption nextKeyword
  asim
  refine asim_constant.ofF.bindQ (fun x y => ?_) (fun x => quote_expect (by simp) _)
  by_cases hxy : RelaxedConst x y
  · refine ASim.pre (I := Near) (fun _ _ h => h.2) ?_
    asim
    exact ASim.same ⟨y, hxy, rfl⟩ fun _ _ h => h
  · exact ASim.false fun _ _ h => hxy h.1
macro_rules | `(tactic| alem) => `(tactic| exact asim_option)

/-! ## Options of fields -/

def RelaxedFieldOption (a b : FieldOption) : Prop := ∃ k, RelaxedConst a.constant k ∧ b = { a with constant := k }

theorem asim_fieldOption : ASim Near (Both RelaxedFieldOption Near) AtQuote (parseFieldOption ⟨false, b, n⟩)
    (parseFieldOption ⟨true, b, n'⟩) := by
  unfold parseFieldOption
  asim
  refine asim_constant.ofF.bindQ (fun x y => ?_) (fun x => ⟨fun l h => h⟩)
  by_cases hxy : RelaxedConst x y
  · exact ASim.pure fun _ _ h => ⟨⟨y, hxy, rfl⟩, h.2⟩
  · exact ASim.false fun _ _ h => hxy h.1

theorem quote_optionsLoop (s : String) (k : Nat) (os : List FieldOption) :
    Run AtQuote AtQuote Doomed (fieldOptionsLoop ⟨false, b, n⟩ s k os) := by
  refine ⟨fun l hl => ?_⟩
  cases k with
  | zero => trivial
  | succ k =>
    have : fieldOptionsLoop ⟨false, b, n⟩ s (k + 1) os l = .ok os (putBack {} l) := by
      unfold fieldOptionsLoop
      rw [bind_run (run_next hl.good)]
      show (if (nextSt {} l).token ≠ .comma then _ else _ : P _) _ = _
      rw [if_pos (by rw [hl.quote]; simp)]
      show M.bind unNext _ _ = _
      unfold M.bind
      rw [unNext_nextSt]
      rfl
    rw [this]
    exact quote_back hl

theorem asim_optionsLoop (s : String) (k : Nat) : ∀ {os os' : List FieldOption}, RelaxedOpts os os' →
    ASim Near (Both RelaxedOpts Full) AtQuote (fieldOptionsLoop ⟨false, b, n⟩ s k os)
      (fieldOptionsLoop ⟨true, b, n'⟩ s k os') := by
  induction k with
  | zero => intro _ _ _; exact ASim.stop
  | succ k ih =>
    intro os os' h
    unfold fieldOptionsLoop
    asim
    · exact ASim.same h fun _ _ h => h
    · refine (asim_orUnexpected asim_fieldOption.ofF).bindQ (fun x y => ?_) (fun x => quote_optionsLoop _ _ _)
      by_cases hxy : RelaxedFieldOption x y
      · exact (ih (alike_snoc h hxy)).pre fun _ _ h => h.2
      · exact ASim.false fun _ _ h => hxy h.1

theorem asim_fieldOptionsOption : ASim Near (Both RelaxedOpts Full) W (parseFieldOptionsOption ⟨false, b, n⟩)
    (parseFieldOptionsOption ⟨true, b, n'⟩) := by
  have key : ASim Near (Both RelaxedOpts Full) AtQuote (parseFieldOptions ⟨false, b, n⟩)
      (parseFieldOptions ⟨true, b, n'⟩) := by
    unfold parseFieldOptions
    refine asim_fieldOption.bindQ (fun x y => ?_) (fun x => ?_)
    · by_cases hxy : RelaxedFieldOption x y
      · refine ASim.pre (I := Near) (fun _ _ h => h.2) ?_
        refine asim_bound.bind fun k _ h => ?_
        subst h
        exact asim_optionsLoop _ _ (.cons hxy .nil)
      · exact ASim.false fun _ _ h => hxy h.1
    · exact ⟨fun l h => (quote_optionsLoop _ _ _).sat l h⟩
  unfold parseFieldOptionsOption
  asim
  · refine key.ofF.bindQ (fun x y => ?_) (fun x => quote_expect (by simp) _)
    by_cases hxy : RelaxedOpts x y
    · refine ASim.pre (I := Full) (fun _ _ h => h.2) ?_
      asim
      exact ASim.same hxy fun _ _ h => h
    · exact ASim.false fun _ _ h => hxy h.1
  · exact ASim.same .nil fun _ _ h => h
macro_rules | `(tactic| alem) => `(tactic| exact asim_fieldOptionsOption)

theorem asim_enumValueOptions : ASim Near (Both RelaxedOpts Full) W (parseEnumValueOptions ⟨false, b, n⟩)
    (parseEnumValueOptions ⟨true, b, n'⟩) := by
  unfold parseEnumValueOptions
  asim
  · exact ASim.same .nil fun _ _ h => h
  · refine (asim_orUnexpected asim_fieldOption.ofF).bindQ (W := AtQuote) (fun x y => ?_) (fun x => ?_)
    · by_cases hxy : RelaxedFieldOption x y
      · refine ASim.pre (I := Near) (fun _ _ h => h.2) ?_
        refine asim_bound.bind fun k _ h => ?_
        subst h
        refine (asim_optionsLoop _ _ (.cons hxy .nil)).bindQ (fun x y => ?_) (fun x => quote_expect (by simp) _)
        by_cases hxy : RelaxedOpts x y
        · refine ASim.pre (I := Full) (fun _ _ h => h.2) ?_
          asim
          exact ASim.same hxy fun _ _ h => h
        · exact ASim.false fun _ _ h => hxy h.1
      · exact ASim.false fun _ _ h => hxy h.1
    · refine Run.bind (Q := AtQuote) ⟨fun l h => h⟩ fun k => ?_
      exact (quote_optionsLoop _ _ _).bind fun _ => quote_expect (by simp) _
macro_rules | `(tactic| alem) => `(tactic| exact asim_enumValueOptions)

/-! ## Fields -/

theorem asim_field :
    ASim Near (Both RelaxedField Full) W (parseField ⟨false, b, n⟩) (parseField ⟨true, b, n'⟩) := by
  unfold parseField nextKeyword
  asim
  exact ASim.same ⟨_, by assumption, rfl⟩ fun _ _ h => h
macro_rules | `(tactic| alem) => `(tactic| exact asim_field)

theorem asim_mapField :
    ASim Near (Both RelaxedMapField Full) W (parseMapField ⟨false, b, n⟩) (parseMapField ⟨true, b, n'⟩) := by
  unfold parseMapField nextKeyword
  asim
  exact ASim.same ⟨_, by assumption, rfl⟩ fun _ _ h => h
macro_rules | `(tactic| alem) => `(tactic| exact asim_mapField)

theorem asim_oneofField :
    ASim Near (Both RelaxedOneofField Full) W (parseOneofField ⟨false, b, n⟩) (parseOneofField ⟨true, b, n'⟩) := by
  unfold parseOneofField
  asim
  exact ASim.same ⟨_, by assumption, rfl⟩ fun _ _ h => h
macro_rules | `(tactic| alem) => `(tactic| exact asim_oneofField)

theorem asim_enumField :
    ASim Near (Both RelaxedEnumField Full) W (parseEnumField ⟨false, b, n⟩) (parseEnumField ⟨true, b, n'⟩) := by
  unfold parseEnumField nextNumberLit
  asim
  exact ASim.same ⟨_, by assumption, rfl⟩ fun _ _ h => h
macro_rules | `(tactic| alem) => `(tactic| exact asim_enumField)

end

end Verif
