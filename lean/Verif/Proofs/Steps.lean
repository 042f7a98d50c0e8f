import Verif.Proofs.Sat
import Verif.Spec.Grammar

/-!
# Rules for the recurring steps of the parser
-/

set_option backward.isDefEq.respectTransparency false
set_option backward.dsimp.instances true

namespace Verif
open Spec Scanner Lexer
open M (bind_ok run_get)

/-- Error conditions that compose with what was consumed before. -/
class ErrRel (sm : outParam Bool) (E : Lexer → Err → Lexer → Prop) : Prop where
  trans {l l1 l2 : Lexer} {ts : List Tok} {e : Err} : Took l ts l1 → E l1 e l2 → E l e l2
  ofR {l l' : Lexer} {e : Err} : FailR sm l e l' → E l e l'

instance {sm : Bool} : ErrRel sm (FailR sm) := ⟨fun h hf => hf.trans h, fun h => h⟩
instance {sm : Bool} : ErrRel sm (Fail sm) := ⟨fun h hf => hf.trans h, fun h => h.toFail⟩

section
variable {α β : Type} {H : Halt → Prop} {Q : α → Lexer → Prop} {Q' : β → Lexer → Prop}
variable {E : Lexer → Err → Lexer → Prop} {sm : Bool} [hE : ErrRel sm E]
variable {l0 l : Lexer} {ts : List Tok}

include hE

/-- Run a part after having consumed some tokens. -/
theorem Sat.step {m : P α} {f : α → P β} (ht : Took l0 ts l) (h : Sat H Q (E l) (m l))
    (hf : ∀ a l', Q a l' → Sat H Q' (E l0) (f a l')) : Sat H Q' (E l0) ((m >>= f) l) :=
  Sat.bind' h (fun _ _ he => ErrRel.trans ht he) hf

theorem Sat.stepR {m : P α} {f : α → P β} (ht : Took l0 ts l) (h : Sat H Q (FailR sm l) (m l))
    (hf : ∀ a l', Q a l' → Sat H Q' (E l0) (f a l')) : Sat H Q' (E l0) ((m >>= f) l) :=
  Sat.bind' h (fun _ _ he => ErrRel.trans ht (ErrRel.ofR he)) hf

/-- The last part. -/
theorem Sat.tail {m : P α} (ht : Took l0 ts l) (h : Sat H Q (E l) (m l)) :
    Sat H Q (E l0) (m l) :=
  h.mono (fun _ _ h => h) (fun _ _ he => ErrRel.trans ht he)

theorem Sat.tailR {m : P α} (ht : Took l0 ts l) (h : Sat H Q (FailR sm l) (m l)) :
    Sat H Q (E l0) (m l) :=
  h.mono (fun _ _ h => h) (fun _ _ he => ErrRel.trans ht (ErrRel.ofR he))

theorem sat_unexpected {m : Mode} (hm : m.comment = false) (ht : Took l0 ts l) {s : String} :
    Sat H Q (E l0) ((Parser.unexpected s : P α) (nextSt m l)) :=
  ErrRel.trans ht (ErrRel.ofR (failR_next ht.good hm _ _))

theorem sat_lexUnexpected {m : Mode} (hm : m.comment = false) (ht : Took l0 ts l) {s : String} :
    Sat H Q (E l0) ((Lexer.unexpected s : P α) (nextSt m l)) :=
  ErrRel.trans ht (ErrRel.ofR (failR_next ht.good hm _ _))

/-- The token `x` of kind `t` was just read in mode `m`, from `l` to `l'`. -/
structure Got (m : Mode) (t : Token) (l : Lexer) (x : Tok) (l' : Lexer) : Prop where
  text : x.text = l'.text
  pos : x.pos = l'.pos.p
  reads : Reads m t x.text
  token : l'.token = t
  next : (nextSt m l).token = t
  eq : l' = nextSt m l

omit hE in
theorem got_next {m : Mode} (hm : m.comment = false) {t : Token} (hk : (nextSt m l).token = t)
    (h1 : t ≠ .eof) (h2 : t ≠ .illegal) : Got m t l (nextTok m l) (nextSt m l) := by
  obtain ⟨h3, h4⟩ := next_reads hm hk h1 h2
  exact ⟨h3, rfl, by rw [h3]; exact h4, hk, hk, rfl⟩

omit hE in
theorem Got.tok {m : Mode} {t : Token} {x : Tok} {l' : Lexer} (h : Got m t l x l') (hm : m.comment = false)
    (h1 : t ≠ .eof) (h2 : t ≠ .illegal) : x = nextTok m l := by
  have g := got_next hm h.next h1 h2
  have e := h.eq
  subst e
  have h3 := h.text.trans g.text.symm
  have h4 := h.pos.trans g.pos.symm
  cases x
  cases hn : nextTok m l
  rw [hn] at h3 h4
  simp_all

omit hE in
theorem Got.took {m : Mode} {t : Token} {x : Tok} {l' : Lexer} (h : Got m t l x l') (hg : Good l)
    (hm : m.comment = false := by rfl) (h1 : t ≠ .eof := by simp) (h2 : t ≠ .illegal := by simp) : Took l [x] l' := by
  have := next_took hg hm (by rw [h.next]; exact h1)
  rwa [← h.tok hm h1 h2, ← h.eq] at this

/-- Reading a token of a required kind. -/
theorem step_expect {nx : P Unit} {m : Mode} (hn : IsNext nx m) (hm : m.comment = false) {t : Token}
    {s : String} {f : Unit → P α} (h1 : t ≠ .eof) (h2 : t ≠ .illegal) (ht : Took l0 ts l)
    (h : ∀ x l', Got m t l x l' → Took l0 (ts ++ [x]) l' → Sat H Q (E l0) (f () l')) :
    Sat H Q (E l0) ((Parser.expect nx t s >>= f) l) := by
  show Sat H Q (E l0) (M.bind (Parser.expect nx t s) f l)
  unfold M.bind
  have hr : Parser.expect nx t s l = if (nextSt m l).token = t then .ok () (nextSt m l) else
      (Parser.unexpected s : P Unit) (nextSt m l) := by
    unfold Parser.expect
    refine (bind_ok (hn.run ht.good)).trans ?_
    refine (bind_ok (run_tok _)).trans ?_
    by_cases h : (nextSt m l).token = t <;> simp [h] <;> rfl
  rw [hr]
  by_cases hk : (nextSt m l).token = t
  · simp only [hk, if_true]
    exact h _ _ (got_next hm hk h1 h2) (ht.trans (next_took ht.good hm (by rw [hk]; exact h1)))
  · simp only [hk, if_false]
    exact ErrRel.trans ht (ErrRel.ofR (failR_next ht.good hm _ _))

/-- `expect` as the last step. -/
theorem tail_expect {nx : P Unit} {m : Mode} (hn : IsNext nx m) (hm : m.comment = false) {t : Token}
    {s : String} {Q : Unit → Lexer → Prop} (h1 : t ≠ .eof) (h2 : t ≠ .illegal) (ht : Took l0 ts l)
    (h : ∀ x l', Got m t l x l' → Took l0 (ts ++ [x]) l' → Q () l') :
    Sat H Q (E l0) (Parser.expect nx t s l) := by
  have := step_expect (f := fun a => (Pure.pure a : P Unit)) hn hm h1 h2 (s := s) ht h (H := H) (E := E)
  revert this
  show Sat H Q (E l0) (M.bind _ _ l) → _
  unfold M.bind
  cases Parser.expect nx t s l <;> exact id

end

theorem orUnexpected_sat {sm : Bool} {α : Type} {H : Halt → Prop} {Q : α → Lexer → Prop} {m : P α} {l : Lexer}
    {s : String} (h : Sat H Q (FailR sm l) (m l)) : Sat H Q (FailR sm l) (Parser.orUnexpected m s l) := by
  unfold Parser.orUnexpected
  refine Sat.bind (Q := fun a l' => match a with | .ok a => Q a l' | .error e => FailR sm l e l')
    (Sat.attempt h (fun _ _ h => h) (fun _ _ h => h)) ?_
  intro a l' h'
  cases a with
  | ok a => exact h'
  | error e => exact ⟨⟨h'.took, .single _ _ _ h'.tpos, h'.tpos⟩, h'.recov⟩

theorem orUnexpected_fail {sm : Bool} {α : Type} {H : Halt → Prop} {Q : α → Lexer → Prop} {m : P α} {l : Lexer}
    {s : String} (h : Sat H Q (Fail sm l) (m l)) : Sat H Q (Fail sm l) (Parser.orUnexpected m s l) := by
  unfold Parser.orUnexpected
  refine Sat.bind (Q := fun a l' => match a with | .ok a => Q a l' | .error e => Fail sm l e l')
    (Sat.attempt h (fun _ _ h => h) (fun _ _ h => h)) ?_
  intro a l' h'
  cases a with
  | ok a => exact h'
  | error e => exact ⟨h'.took, .single _ _ _ h'.tpos, h'.tpos⟩

/-! ## Looking ahead -/

/-- The cursor is where it was. -/
structure Back (l l' : Lexer) : Prop where
  good : Good l'
  inp : l'.scanner.inp = l.scanner.inp
  pos : l'.scanner.pos = l.scanner.pos
  real : Real l'.token → Real l.token
  inv : ∀ K, Inv K l → Inv K l'

theorem Back.refl {l : Lexer} (h : Good l) : Back l l := ⟨h, rfl, rfl, id, fun _ h => h⟩
theorem Back.trans {l l1 l2 : Lexer} (h : Back l l1) (h' : Back l1 l2) : Back l l2 :=
  ⟨h'.good, h'.inp.trans h.inp, h'.pos.trans h.pos, fun hr => h.real (h'.real hr),
    fun K hK => h'.inv K (h.inv K hK)⟩
theorem Back.took {l l' : Lexer} (h : Back l l') (hg : Good l) : Took l [] l' :=
  (Took.refl hg).congr h.good h.inp h.pos h.real h.inv
theorem back_putBack {l : Lexer} (h : Good l) (m : Mode) : Back l (putBack m l) :=
  ⟨good_putBack h m, rfl, rfl, fun h => absurd rfl h.1, fun _ h => h.putBack m⟩

/-- The next token does not depend on anything but the cursor. -/
theorem Back.token {l l' : Lexer} (h : Back l l') (m : Mode) :
    (nextSt m l').token = (nextSt m l).token := by simp only [nextSt, h.inp]
theorem Back.text {l l' : Lexer} (h : Back l l') (m : Mode) :
    (nextSt m l').text = (nextSt m l).text := by simp only [nextSt, h.inp]
theorem Back.tpos {l l' : Lexer} (h : Back l l') (m : Mode) :
    (nextSt m l').pos = (nextSt m l).pos := by simp only [nextSt, h.inp, h.pos]

/-- The cursor is where it was; nothing is said of the recorded comments. -/
structure SamePlace (l l' : Lexer) : Prop where
  good : Good l'
  inp : l'.scanner.inp = l.scanner.inp
  pos : l'.scanner.pos = l.scanner.pos
  real : Real l'.token → Real l.token

theorem Back.samePlace {l l' : Lexer} (h : Back l l') : SamePlace l l' := ⟨h.good, h.inp, h.pos, h.real⟩

theorem unNextTo_same {l l2 : Lexer} {m : Mode} (hg : Good l) (h : SamePlace (nextSt m l) l2) :
    ∃ l3, unNextTo (nextSt m l).rawText l2 = .ok () l3 ∧ SamePlace l l3 ∧
      l3.scanner.comments = l2.scanner.comments := by
  have hp : l2.scanner.pos = l.scanner.pos.advanceAll (lex m l.scanner.inp).raw := h.pos
  have e := unScan_eq (s := { l2.scanner with raw := (lex m l.scanner.inp).raw })
    (p := l.scanner.pos) hp
  refine ⟨_, rfl, ⟨?_, ?_, ?_, fun h => absurd rfl h.1⟩, ?_⟩
  · simp only [nextSt, e]
    have hi : l2.scanner.inp = l.scanner.inp.drop (lex m l.scanner.inp).raw.length := h.inp
    refine ⟨?_, (good_next hg m).raw, h.good.mode⟩
    show NulFree ((lex m l.scanner.inp).raw ++ l2.scanner.inp)
    rw [hi, ← drop_raw]
    exact hg.inp
  · simp only [nextSt, e]
    have hi : l2.scanner.inp = l.scanner.inp.drop (lex m l.scanner.inp).raw.length := h.inp
    rw [hi, ← drop_raw]
  · simp only [nextSt, e]
  · simp only [nextSt, e]

/-- `UnNextTo` the raw text of a token goes back before the token. -/
theorem unNextTo_back {l l2 : Lexer} {m : Mode} (hg : Good l) (h : Back (nextSt m l) l2)
    (hc : PlainToken (nextSt m l).token ∨ l2.scanner.comments = (nextSt m l).scanner.comments) :
    ∃ l3, unNextTo (nextSt m l).rawText l2 = .ok () l3 ∧ Back l l3 := by
  obtain ⟨l3, h1, h2, h3⟩ := unNextTo_same hg h.samePlace
  refine ⟨l3, h1, h2.good, h2.inp, h2.pos, h2.real, fun K hK => ?_⟩
  rcases hc with hc | hc
  · exact (h.inv _ (hK.next m)).back hK hc h.inp h.pos h2.inp h2.pos h3
  · exact (hK.putBack m).congr h2.inp h2.pos (h3.trans hc)

section
variable {α : Type} {H : Halt → Prop} {Q : α → Lexer → Prop} {E : Err → Lexer → Prop} {l : Lexer}

theorem sat_unNextTo {l2 : Lexer} {m : Mode} {r : Str} {f : Unit → P α} (hg : Good l)
    (h : Back (nextSt m l) l2) (hr : r = (nextSt m l).rawText)
    (hc : PlainToken (nextSt m l).token ∨ l2.scanner.comments = (nextSt m l).scanner.comments)
    (hf : ∀ l3, Back l l3 → Sat H Q E (f () l3)) : Sat H Q E ((unNextTo r >>= f) l2) := by
  subst hr
  obtain ⟨l3, h1, h2⟩ := unNextTo_back hg h hc
  show Sat H Q E (M.bind _ f l2)
  unfold M.bind
  rw [h1]
  exact hf l3 h2

theorem sat_peek {f : Token → P α} (hg : Good l)
    (h : Sat H Q E (f (nextSt {} l).token (putBack {} l))) : Sat H Q E ((Lexer.peek >>= f) l) := by
  have hp : Lexer.peek l = .ok (nextSt {} l).token (putBack {} l) := by
    unfold Lexer.peek
    refine (bind_ok (run_next hg)).trans ?_
    refine (bind_ok (run_tok _)).trans ?_
    refine (bind_ok (unNext_nextSt _ _)).trans ?_
    rfl
  show Sat H Q E (M.bind Lexer.peek f l)
  unfold M.bind
  rw [hp]
  exact h

theorem sat_peekKeyword {f : Token → P α} (hg : Good l)
    (h : Sat H Q E (f (nextSt .kw l).token (putBack .kw l))) :
    Sat H Q E ((Parser.peekKeyword >>= f) l) := by
  have hp : Parser.peekKeyword l = .ok (nextSt .kw l).token (putBack .kw l) := by
    unfold Parser.peekKeyword
    refine (bind_ok (run_nextWith hg _)).trans ?_
    refine (bind_ok (run_tok _)).trans ?_
    refine (bind_ok (unNext_nextSt _ _)).trans ?_
    rfl
  show Sat H Q E (M.bind Parser.peekKeyword f l)
  unfold M.bind
  rw [hp]
  exact h

theorem sat_isEOF {f : Bool → P α} (hg : Good l)
    (h : Sat H Q E (f (decide ((nextSt {} l).token = .eof)) (putBack {} l))) :
    Sat H Q E ((Parser.isEOF >>= f) l) := by
  have hp : Parser.isEOF l = .ok (decide ((nextSt {} l).token = .eof)) (putBack {} l) := by
    unfold Parser.isEOF
    refine (bind_ok (run_next hg)).trans ?_
    refine (bind_ok (m := Lexer.isEOF) (a := decide ((nextSt {} l).token = .eof)) (s' := nextSt {} l) rfl).trans ?_
    refine (bind_ok (unNext_nextSt _ _)).trans ?_
    rfl
  show Sat H Q E (M.bind Parser.isEOF f l)
  unfold M.bind
  rw [hp]
  exact h

theorem peekN2_run (hg : Good l) : ∃ l', peekN 2 l = .ok (nextSt {} (nextSt {} l)).token l' ∧ SamePlace l l' ∧
    (PlainToken (nextSt {} l).token → Back l l') := by
  have hg1 := good_next hg {}
  have hg2 := good_next hg1 {}
  obtain ⟨l3, h3, hb3⟩ := unNextTo_back (m := {}) hg1 (Back.refl hg2) (.inr rfl)
  obtain ⟨l4, h4, hn4, hc4⟩ := unNextTo_same (m := {}) hg hb3.samePlace
  refine ⟨l4, ?_, hn4, fun hc => ?_⟩
  · unfold peekN
    refine (bind_ok (a := [(nextSt {} l).rawText, (nextSt {} (nextSt {} l)).rawText])
      (s' := nextSt {} (nextSt {} l)) ?_).trans ?_
    · unfold peekNLoop
      refine (bind_ok (run_next hg)).trans ?_
      refine (bind_ok (run_get _)).trans ?_
      unfold peekNLoop
      refine (bind_ok (run_next hg1)).trans ?_
      refine (bind_ok (run_get _)).trans ?_
      rfl
    refine (bind_ok (run_tok _)).trans ?_
    refine (bind_ok (a := ()) (s' := l4) ?_).trans rfl
    show unNextAll [(nextSt {} (nextSt {} l)).rawText, (nextSt {} l).rawText] _ = _
    unfold unNextAll
    refine (bind_ok h3).trans ?_
    unfold unNextAll
    refine (bind_ok h4).trans ?_
    rfl
  · obtain ⟨l5, h5, hb5⟩ := unNextTo_back (m := {}) hg hb3 (.inl hc)
    rw [h4] at h5
    injection h5 with _ h5
    exact h5 ▸ hb5

/-- Looking at the token after the next. -/
theorem sat_peekN2 {f : Token → P α} (hg : Good l) (hc : PlainToken (nextSt {} l).token)
    (h : ∀ l', Back l l' → Sat H Q E (f (nextSt {} (nextSt {} l)).token l')) :
    Sat H Q E ((peekN 2 >>= f) l) := by
  obtain ⟨l4, hp, _, hb4⟩ := peekN2_run hg
  show Sat H Q E (M.bind _ f l)
  unfold M.bind
  rw [hp]
  exact h l4 (hb4 hc)

end

end Verif
