import Verif.Proofs.Expect
import Verif.Proofs.ParseMessage

/-!
# What errors say they expected: running the parser
-/

set_option backward.isDefEq.respectTransparency false
set_option backward.dsimp.instances true

namespace Verif
open Spec Scanner Lexer

/-! ## Faults -/

theorem fault_mk {e : String} {x : Str} {k : Kind} [hk : Entry e k] (h : ¬ k.Has x) : Fault e x :=
  .inl (.mk k hk.mem h)

theorem fault_punct {m : Mode} {t k : Token} {x : Str} {c : Char} {e : String} (h : Lexed m t x) (ht : t ≠ k)
    (hs : punctuation k = some c) (hd : k ≠ .dot) [hk : Entry e (Kind.texts [[c]])] : Fault e x :=
  fault_mk (hk := hk) (by simpa [Kind.Has] using lexed_punct h hs hd ht)

theorem fault_keyword {t k : Token} {x w : Str} {e : String} (h : Lexed .kw t x) (ht : t ≠ k)
    (hs : spelling k = some w) [hk : Entry e (Kind.texts [w])] : Fault e x :=
  fault_mk (hk := hk) (by simpa [Kind.Has] using lexed_keyword h rfl rfl rfl hs ht)

theorem fault_ident {t : Token} {x : Str} {e : String} (h : Lexed {} t x) (ht : t ≠ .ident)
    [hk : Entry e (Kind.word [])] : Fault e x :=
  fault_mk (hk := hk) (by simpa [Kind.Has] using lexed_ident h rfl rfl rfl ht)

theorem fault_int {t : Token} {x : Str} {e : String} (h : Lexed .numberLit t x) (ht : t ≠ .intLit)
    [hk : Entry e (Kind.int [])] : Fault e x :=
  fault_mk (hk := hk) (by simpa [Kind.Has] using lexed_int h rfl ht)

theorem fault_str {m : Mode} {t : Token} {x : Str} {e : String} (h : Lexed m t x) (ht : t ≠ .strLit)
    [hk : Entry e (Kind.str)] : Fault e x :=
  fault_mk (hk := hk) (by simpa [Kind.Has] using lexed_str h ht)

theorem fault_quote {m : Mode} {t : Token} {x : Str} (h : Lexed m t x) (ht : t ≠ .quote) : Fault "quote" x :=
  fault_mk (k := .texts [['\''], ['"']]) (by simpa [Kind.Has] using lexed_quote h ht)

theorem fault_phrase {e : String} {x : Str} [hk : Entry e (Kind.phrase)] : Fault e x :=
  fault_mk (hk := hk) (by simp [Kind.Has])

/-! ## Runs -/

structure Say {α : Type} (P Q : Lexer → Prop) (E : Err → Lexer → Prop) (m : Verif.P α) : Prop where
  sat : ∀ l, P l → Sat (fun _ => True) (fun _ l' => Q l') E (m l)

/-- The last token read. -/
structure Now (t : Token) (x : Str) (l : Lexer) : Prop where
  good : Good l
  token : l.token = t
  text : l.text = x

/-- A token was just read in mode `m`. -/
def JustIn (m : Mode) (l : Lexer) : Prop := ∃ t x, Lexed m t x ∧ Now t x l

/-- The faults of the error are as specified. -/
def Told (e : Err) (l : Lexer) : Prop := Good l ∧ Faults Fault e

/-- The same, and the last text has a property. -/
def ToldText (R : Str → Prop) (e : Err) (l : Lexer) : Prop := Told e l ∧ R l.text

class IsGood (P : Lexer → Prop) : Prop where
  good : ∀ l, P l → Good l

instance : IsGood Good := ⟨fun _ h => h⟩
instance (t : Token) (x : Str) : IsGood (Now t x) := ⟨fun _ h => h.good⟩
instance (m : Mode) : IsGood (JustIn m) := ⟨fun _ h => by obtain ⟨_, _, _, h⟩ := h; exact h.good⟩

section
variable {α β : Type} {P Q S : Lexer → Prop} {E : Err → Lexer → Prop} {t : Token} {x : Str} {m : Mode}

theorem Say.bind {a : Verif.P α} {f : α → Verif.P β} (h : Say P Q E a) (hf : ∀ v, Say Q S E (f v)) :
    Say P S E (a >>= f) :=
  ⟨fun l hl => Sat.bind (h.sat l hl) (fun v l' hq => (hf v).sat l' hq)⟩

theorem Say.attempt {E' : Err → Lexer → Prop} {a : Verif.P α} {f : Except Err α → Verif.P β} (h : Say P Q E' a)
    (hf : ∀ v, Say Q S E (f (.ok v))) (he : ∀ e, Say (E' e) S E (f (.error e))) : Say P S E (M.attempt a >>= f) :=
  ⟨fun l hl =>
  Sat.bind (Q := fun r l' => match r with | .ok _ => Q l' | .error e => E' e l')
    (Sat.attempt (h.sat l hl) (fun _ _ h => h) (fun _ _ h => h))
    (fun r l' hr => by cases r with | ok a => exact (hf a).sat l' hr | error e => exact (he e).sat l' hr)⟩

theorem Say.ite {p : Prop} [Decidable p] {a b : Verif.P α} (h1 : p → Say P Q E a) (h2 : ¬ p → Say P Q E b) :
    Say P Q E (if p then a else b) := by
  split
  · next h => exact h1 h
  · next h => exact h2 h

theorem Say.pre {P' : Lexer → Prop} {a : Verif.P α} (h : Say P Q E a) (hp : ∀ l, P' l → P l) : Say P' Q E a :=
  ⟨fun l hl => h.sat l (hp l hl)⟩

theorem Say.post {Q' : Lexer → Prop} {E' : Err → Lexer → Prop} {a : Verif.P α} (h : Say P Q E a)
    (hq : ∀ l, Q l → Q' l) (he : ∀ e l, E e l → E' e l) : Say P Q' E' a :=
  ⟨fun l hl => (h.sat l hl).mono (fun _ _ => hq _) he⟩

theorem Say.from [hp : IsGood P] {a : Verif.P α} (h : Say Good Q E a) : Say P Q E a := h.pre hp.good

theorem say_pure [hp : IsGood P] (a : α) : Say P Good E (pure a : Verif.P α) := ⟨fun l hl => hp.good l hl⟩
theorem say_stop (h : Halt) : Say P Q E (M.stop h : Verif.P α) := ⟨fun _ _ => trivial⟩

theorem say_tok {f : Token → Verif.P α} (h : Say (Now t x) Q E (f t)) : Say (Now t x) Q E (tok >>= f) := by
  refine ⟨fun l hl => ?_⟩
  rw [sat_tok, hl.token]
  exact h.sat l hl

theorem say_tok' {f : Token → Verif.P α} (h : ∀ t, Say P Q E (f t)) : Say P Q E (tok >>= f) :=
  ⟨fun l hl => (h l.token).sat l hl⟩

theorem say_txt {f : Str → Verif.P α} (h : Say (Now t x) Q E (f x)) : Say (Now t x) Q E (txt >>= f) := by
  refine ⟨fun l hl => ?_⟩
  rw [sat_txt, hl.text]
  exact h.sat l hl

theorem say_txt' {f : Str → Verif.P α} (h : ∀ t, Say P Q E (f t)) : Say P Q E (txt >>= f) :=
  ⟨fun l hl => (h l.text).sat l hl⟩

theorem say_position {f : SPos → Verif.P α} (h : ∀ t, Say P Q E (f t)) : Say P Q E (position >>= f) :=
  ⟨fun l hl => (h l.pos).sat l hl⟩

theorem say_bound {f : Nat → Verif.P α} (h : ∀ t, Say P Q E (f t)) : Say P Q E (bound >>= f) :=
  ⟨fun l hl => (h (l.scanner.inp.length + 1)).sat l hl⟩

theorem say_eof {f : Bool → Verif.P α} (h : ∀ b, Say P Q E (f b)) : Say P Q E (Lexer.isEOF >>= f) :=
  ⟨fun l hl => (h (decide (l.token = .eof))).sat l hl⟩

theorem say_find {a b : SPos} {f : List Comment → Verif.P α} (h : ∀ t, Say P Q E (f t)) :
    Say P Q E (Parser.findEmbeddedComments a b >>= f) :=
  ⟨fun l hl => (h _).sat l hl⟩

theorem now_next [hp : IsGood P] {l : Lexer} (hl : P l) : ∃ t x, Lexed m t x ∧ Now t x (nextSt m l) :=
  ⟨_, _, lexed_next m l, good_next (hp.good l hl) m, rfl, rfl⟩

theorem say_isNext [IsGood P] {nx : Verif.P Unit} (hm : IsNext nx m) {f : Unit → Verif.P α}
    (h : ∀ t x, Lexed m t x → Say (Now t x) Q E (f ())) : Say P Q E (nx >>= f) := by
  refine ⟨fun l hl => ?_⟩
  obtain ⟨t, x, h1, h2⟩ := now_next (m := m) hl
  show Sat _ _ _ (M.bind nx f l)
  unfold M.bind
  rw [hm.run (IsGood.good l hl)]
  exact (h t x h1).sat _ h2

theorem say_next [IsGood P] {f : Unit → Verif.P α} (h : ∀ t x, Lexed {} t x → Say (Now t x) Q E (f ())) :
    Say P Q E (next >>= f) := say_isNext .next h
theorem say_nextKeyword [IsGood P] {f : Unit → Verif.P α} (h : ∀ t x, Lexed .kw t x → Say (Now t x) Q E (f ())) :
    Say P Q E (nextKeyword >>= f) := say_isNext (.with_ _) h
theorem say_nextKeywordOrStrLit [IsGood P] {f : Unit → Verif.P α}
    (h : ∀ t x, Lexed .keywordOrStr t x → Say (Now t x) Q E (f ())) :
    Say P Q E (nextKeywordOrStrLit >>= f) := say_isNext (.with_ _) h
theorem say_nextStrLit [IsGood P] {f : Unit → Verif.P α} (h : ∀ t x, Lexed .strLit t x → Say (Now t x) Q E (f ())) :
    Say P Q E (nextStrLit >>= f) := say_isNext (.with_ _) h
theorem say_nextLit [IsGood P] {f : Unit → Verif.P α} (h : ∀ t x, Lexed .lit t x → Say (Now t x) Q E (f ())) :
    Say P Q E (nextLit >>= f) := say_isNext (.with_ _) h
theorem say_nextNumberLit [IsGood P] {f : Unit → Verif.P α}
    (h : ∀ t x, Lexed .numberLit t x → Say (Now t x) Q E (f ())) :
    Say P Q E (nextNumberLit >>= f) := say_isNext (.with_ _) h
theorem say_nextComment [IsGood P] {f : Unit → Verif.P α}
    (h : ∀ t x, Lexed .commentMode t x → Say (Now t x) Q E (f ())) :
    Say P Q E (nextComment >>= f) := say_isNext (.with_ _) h

theorem unNext_now {l : Lexer} (hg : Good l) : ∃ l', unNext l = .ok () l' ∧ Now .illegal l.text l' := by
  obtain ⟨l', h1, h2, h3⟩ := unNext_good hg
  refine ⟨l', h1, h2, ?_, ?_⟩ <;>
  · simp only [unNext, Res.ok.injEq, true_and] at h1
    subst h1
    rfl

theorem say_unNext {f : Unit → Verif.P α} (h : Say (Now .illegal x) Q E (f ())) :
    Say (Now t x) Q E (unNext >>= f) := by
  refine ⟨fun l hl => ?_⟩
  obtain ⟨l', h1, h2⟩ := unNext_now hl.good
  show Sat _ _ _ (M.bind unNext f l)
  unfold M.bind
  rw [h1]
  exact h.sat _ (hl.text ▸ h2)

theorem say_unNext' [hp : IsGood P] {f : Unit → Verif.P α} (h : Say Good Q E (f ())) :
    Say P Q E (unNext >>= f) := by
  refine ⟨fun l hl => ?_⟩
  obtain ⟨l', h1, h2⟩ := unNext_now (hp.good l hl)
  show Sat _ _ _ (M.bind unNext f l)
  unfold M.bind
  rw [h1]
  exact h.sat _ h2.good

theorem say_unNextLast [hp : IsGood P] : Say P Good E unNext := by
  refine ⟨fun l hl => ?_⟩
  obtain ⟨l', h1, h2⟩ := unNext_now (hp.good l hl)
  rw [h1]
  exact h2.good

theorem say_unexpected {e : String} (h : Fault e x) : Say (Now t x) Q Told (Parser.unexpected e : Verif.P α) :=
  ⟨fun _ hl => ⟨hl.good, .single _ _ _ _ rfl (hl.text ▸ h)⟩⟩

theorem say_unexpectedT {e : String} {R : Str → Prop} (h : Fault e x) (hr : R x) :
    Say (Now t x) Q (ToldText R) (Parser.unexpected e : Verif.P α) :=
  ⟨fun _ hl => ⟨⟨hl.good, .single _ _ _ _ rfl (hl.text ▸ h)⟩, hl.text ▸ hr⟩⟩

theorem say_unexpected' [hp : IsGood P] {e : String} (h : ∀ x, Fault e x) :
    Say P Q Told (Parser.unexpected e : Verif.P α) :=
  ⟨fun l hl => ⟨hp.good l hl, .single _ _ _ _ rfl (h _)⟩⟩

theorem say_lexUnexpected {e : String} (h : Fault e x) : Say (Now t x) Q Told (Lexer.unexpected e : Verif.P α) :=
  ⟨fun _ hl => ⟨hl.good, .single _ _ _ _ rfl (hl.text ▸ h)⟩⟩

theorem say_lexUnexpectedT {e : String} {R : Str → Prop} (h : Fault e x) (hr : R x) :
    Say (Now t x) Q (ToldText R) (Lexer.unexpected e : Verif.P α) :=
  ⟨fun _ hl => ⟨⟨hl.good, .single _ _ _ _ rfl (hl.text ▸ h)⟩, hl.text ▸ hr⟩⟩

/-- Reading an expected token. -/
theorem say_expect [IsGood P] {nx : Verif.P Unit} (hm : IsNext nx m) {k : Token} {e : String} {f : Unit → Verif.P α}
    (he : ∀ t x, Lexed m t x → t ≠ k → Fault e x) (h : ∀ x, Lexed m k x → Say (Now k x) Q Told (f ())) :
    Say P Q Told (Parser.expect nx k e >>= f) := by
  have : Say P (fun l => ∃ x, Lexed m k x ∧ Now k x l) Told (Parser.expect nx k e) := by
    unfold Parser.expect
    refine say_isNext hm fun t x hx => say_tok (Say.ite (fun ht => ?_) (fun ht => say_unexpected (he t x hx ht)))
    subst ht
    exact ⟨fun l hl => ⟨x, hx, hl⟩⟩
  exact this.bind fun _ => ⟨fun l hl => by obtain ⟨x, hx, h1⟩ := hl; exact (h x hx).sat l h1⟩

theorem say_expectNext [IsGood P] {k : Token} {e : String} {f : Unit → Verif.P α}
    (he : ∀ t x, Lexed {} t x → t ≠ k → Fault e x) (h : ∀ x, Lexed {} k x → Say (Now k x) Q Told (f ())) :
    Say P Q Told (Parser.expect next k e >>= f) := say_expect .next he h

theorem say_expectKeyword [IsGood P] {k : Token} {e : String} {f : Unit → Verif.P α}
    (he : ∀ t x, Lexed .kw t x → t ≠ k → Fault e x) (h : ∀ x, Lexed .kw k x → Say (Now k x) Q Told (f ())) :
    Say P Q Told (Parser.expect nextKeyword k e >>= f) := say_expect (.with_ _) he h

theorem say_expectStr [IsGood P] {k : Token} {e : String} {f : Unit → Verif.P α}
    (he : ∀ t x, Lexed .strLit t x → t ≠ k → Fault e x) (h : ∀ x, Lexed .strLit k x → Say (Now k x) Q Told (f ())) :
    Say P Q Told (Parser.expect nextStrLit k e >>= f) := say_expect (.with_ _) he h

theorem say_expectNumber [IsGood P] {k : Token} {e : String} {f : Unit → Verif.P α}
    (he : ∀ t x, Lexed .numberLit t x → t ≠ k → Fault e x) (h : ∀ x, Lexed .numberLit k x → Say (Now k x) Q Told (f ())) :
    Say P Q Told (Parser.expect nextNumberLit k e >>= f) := say_expect (.with_ _) he h

/-- The same for a function whose error text the caller replaces. -/
theorem say_expectT [IsGood P] {nx : Verif.P Unit} (hm : IsNext nx m) {k : Token} {e : String} {f : Unit → Verif.P α}
    {R : Str → Prop} (he : ∀ t x, Lexed m t x → t ≠ k → Fault e x ∧ R x)
    (h : ∀ x, Lexed m k x → Say (Now k x) Q (ToldText R) (f ())) :
    Say P Q (ToldText R) (Parser.expect nx k e >>= f) := by
  have : Say P (fun l => ∃ x, Lexed m k x ∧ Now k x l) (ToldText R) (Parser.expect nx k e) := by
    unfold Parser.expect
    refine say_isNext hm fun t x hx => say_tok (Say.ite (fun ht => ?_)
      (fun ht => say_unexpectedT (he t x hx ht).1 (he t x hx ht).2))
    subst ht
    exact ⟨fun l hl => ⟨x, hx, hl⟩⟩
  exact this.bind fun _ => ⟨fun l hl => by obtain ⟨x, hx, h1⟩ := hl; exact (h x hx).sat l h1⟩

/-- A replaced error. -/
theorem say_orUnexpected [IsGood P] {a : Verif.P β} {R : Str → Prop} {e : String} {f : β → Verif.P α}
    (ha : Say Good Good (ToldText R) a) (he : ∀ x, R x → Fault e x) (h : ∀ v, Say Good Q Told (f v)) :
    Say P Q Told (Parser.orUnexpected a e >>= f) := by
  have : Say P Good Told (Parser.orUnexpected a e) := by
    unfold Parser.orUnexpected
    refine Say.attempt ha.from (fun v => say_pure _) (fun e' => ⟨fun l hl => ?_⟩)
    exact ⟨hl.1.1, .single _ _ _ _ rfl (he _ hl.2)⟩
  exact this.bind h

theorem say_orPhrase [IsGood P] {a : Verif.P β} {e : String} {f : β → Verif.P α}
    (ha : Say Good Good Told a) [he : Entry e (Kind.phrase)] (h : ∀ v, Say Good Q Told (f v)) :
    Say P Q Told (Parser.orUnexpected a e >>= f) := by
  have : Say P Good Told (Parser.orUnexpected a e) := by
    unfold Parser.orUnexpected
    refine Say.attempt ha.from (fun v => say_pure _) (fun e' => ⟨fun l hl => ?_⟩)
    exact ⟨hl.1, .single _ _ _ _ rfl fault_phrase⟩
  exact this.bind h

theorem say_told {a : Verif.P α} {e : Err} (h : Faults Fault e → Say Good Q E a) : Say (Told e) Q E a :=
  ⟨fun l hl => (h hl.2).sat l hl.1⟩

theorem say_throw [hp : IsGood P] {e : Err} (h : Faults Fault e) : Say P Q Told (M.throw e : Verif.P α) :=
  ⟨fun l hl => ⟨hp.good l hl, h⟩⟩

theorem say_attempt [IsGood P] {a : Verif.P β} {f : Except Err β → Verif.P α} (ha : Say Good Good Told a)
    (h : ∀ v, Say Good Q Told (f (.ok v))) (he : ∀ e, Faults Fault e → Say Good Q Told (f (.error e))) :
    Say P Q Told (M.attempt a >>= f) :=
  Say.attempt ha.from h fun e => say_told (he e)

theorem say_justIn {a : Verif.P α} (hx : Lexed m t x) (h : Say (JustIn m) Q E a) : Say (Now t x) Q E a :=
  h.pre fun _ hl => ⟨t, x, hx, hl⟩

theorem say_open {a : Verif.P α} (h : ∀ t x, Lexed m t x → Say (Now t x) Q E a) : Say (JustIn m) Q E a :=
  ⟨fun l hl => by obtain ⟨t, x, h1, h2⟩ := hl; exact (h t x h1).sat l h2⟩

theorem Say.told {R : Str → Prop} {a : Verif.P α} (h : Say P Q (ToldText R) a) : Say P Q Told a :=
  h.post (fun _ h => h) (fun _ _ h => h.1)

/-- A function without a claim about the token it leaves. -/
theorem say_call [IsGood P] {a : Verif.P β} {f : β → Verif.P α} (ha : Say Good Good Told a)
    (h : ∀ v, Say Good Q Told (f v)) : Say P Q Told (a >>= f) := ha.from.bind h

end

/-- A missing token. -/
macro "fault" : tactic => `(tactic| first
  | (intro _ _ h ht; exact fault_punct h ht rfl (by decide))
  | (intro _ _ h ht; exact fault_keyword h ht rfl)
  | (intro _ _ h ht; exact fault_ident h ht)
  | (intro _ _ h ht; exact fault_int h ht)
  | (intro _ _ h ht; exact fault_str h ht)
  | (intro _ _ h ht; exact fault_quote h ht))

syntax "saylem" : tactic
macro_rules | `(tactic| saylem) => `(tactic| apply_assumption -exfalso)

macro "saystep" : tactic => `(tactic| with_reducible first
  | refine say_expectNext (by fault) (fun _ _ => ?_)
  | refine say_expectKeyword (by fault) (fun _ _ => ?_)
  | refine say_expectStr (by fault) (fun _ _ => ?_)
  | refine say_expectNumber (by fault) (fun _ _ => ?_)
  | refine say_next (fun _ _ _ => ?_)
  | refine say_nextKeyword (fun _ _ _ => ?_)
  | refine say_nextKeywordOrStrLit (fun _ _ _ => ?_)
  | refine say_nextStrLit (fun _ _ _ => ?_)
  | refine say_nextLit (fun _ _ _ => ?_)
  | refine say_nextNumberLit (fun _ _ _ => ?_)
  | refine say_nextComment (fun _ _ _ => ?_)
  | refine say_unNext ?_
  | refine say_unNext' ?_
  | refine say_tok ?_
  | refine say_tok' (fun _ => ?_)
  | refine say_txt ?_
  | refine say_txt' (fun _ => ?_)
  | refine say_position (fun _ => ?_)
  | refine say_bound (fun _ => ?_)
  | refine say_eof (fun _ => ?_)
  | refine say_find (fun _ => ?_)
  | refine say_orPhrase (by saylem) (fun _ => ?_)
  | refine say_attempt (by saylem) (fun _ => ?_) (fun _ _ => ?_)
  | refine say_call (by saylem) (fun _ => ?_)
  | refine Say.ite (fun _ => ?_) (fun _ => ?_)
  | exact say_pure _
  | exact say_unNextLast
  | exact say_stop _
  | exact say_throw (by first | assumption | exact .pair _ _ (by assumption) (by assumption))
  | refine say_unexpected ?_
  | refine say_lexUnexpected ?_
  | refine say_unexpectedT ?_ ?_
  | refine say_lexUnexpectedT ?_ ?_
  | (refine Say.from ?_; saylem))

macro "say" : tactic => `(tactic| repeat' first | saystep | split | dsimp only)

end Verif

namespace Verif.Lexer
open Spec Scanner

theorem fault_semi {t : Token} {x : Str} {m : Mode} (h : Lexed m t x) (ht : t ≠ .semicolon) : Fault ";" x :=
  fault_punct h ht rfl (by decide)

theorem say_peekNow {α : Type} {P Q : Lexer → Prop} [IsGood P] {E : Err → Lexer → Prop} {f : Token → Verif.P α}
    (h : ∀ t x, Lexed {} t x → Say (Now .illegal x) Q E (f t)) : Say P Q E (peek >>= f) := by
  refine ⟨fun l hl => ?_⟩
  have hg := IsGood.good l hl
  obtain ⟨l', h1, h2⟩ := unNext_now (good_next hg {})
  have hp : peek l = .ok (nextSt {} l).token l' := by
    unfold peek
    refine (M.bind_ok (run_next hg)).trans ?_
    refine (M.bind_ok (run_tok _)).trans ?_
    exact (M.bind_ok h1).trans rfl
  show Sat _ _ _ (M.bind peek f l)
  unfold M.bind
  rw [hp]
  exact (h _ _ (lexed_next {} l)).sat l' h2

theorem say_peek : Say Good Good Told peek := by unfold peek; say
macro_rules | `(tactic| saylem) => `(tactic| exact Lexer.say_peek)

theorem say_peekN2 : Say Good Good Told (peekN 2) := by
  refine ⟨fun l hl => ?_⟩
  obtain ⟨l', hp, hn, _⟩ := peekN2_run hl
  rw [hp]
  exact hn.good
macro_rules | `(tactic| saylem) => `(tactic| exact Lexer.say_peekN2)

theorem say_nextN (n : Nat) : Say Good Good Told (nextN n) := by
  induction n with
  | zero => exact say_pure _
  | succ n ih => unfold nextN; say
macro_rules | `(tactic| saylem) => `(tactic| exact Lexer.say_nextN _)

theorem say_readEmpty : Say Good Good Told readEmptyStatement := by
  unfold readEmptyStatement
  say
  exact fault_semi (by assumption) (by assumption)
macro_rules | `(tactic| saylem) => `(tactic| exact Lexer.say_readEmpty)

theorem say_consume (k : Token) : Say Good Good Told (consumeToken k) := by
  unfold consumeToken; say
macro_rules | `(tactic| saylem) => `(tactic| exact Lexer.say_consume _)

abbrev NoWord (x : Str) : Prop := ¬ Word x

theorem noWord {t : Token} {x : Str} (h : Lexed {} t x) (ht : t ≠ .ident) : NoWord x := lexed_ident h rfl rfl rfl ht

theorem say_fullIdentLoop (n : Nat) (w : Str) : Say Good Good (ToldText NoWord) (readFullIdentLoop n w) := by
  induction n generalizing w with
  | zero => exact say_stop _
  | succ n ih =>
    unfold readFullIdentLoop
    say
    · exact fault_ident (by assumption) (by assumption)
    · exact noWord (by assumption) (by assumption)

theorem say_fullIdentT : Say Good Good (ToldText NoWord) readFullIdent := by
  unfold readFullIdent
  say
  · exact fault_ident (by assumption) (by assumption)
  · exact noWord (by assumption) (by assumption)
  · exact Say.bind (say_fullIdentLoop _ _).from (fun _ => say_pure _)

theorem say_fullIdent : Say Good Good Told readFullIdent := say_fullIdentT.told
macro_rules | `(tactic| saylem) => `(tactic| exact Lexer.say_fullIdent)

theorem say_messageTypeLoop (n : Nat) (w : Str) : Say (JustIn {}) Good (ToldText NoWord) (readMessageTypeLoop n w) := by
  induction n generalizing w with
  | zero => exact say_stop _
  | succ n ih =>
    unfold readMessageTypeLoop
    refine say_open fun t x hx => ?_
    say
    · exact fault_ident (by assumption) (by assumption)
    · exact noWord (by assumption) (by assumption)
    · exact say_justIn (by assumption) (ih _)

theorem say_leadingDot {E : Err → Lexer → Prop} : Say Good Good E readLeadingDot := by
  unfold readLeadingDot
  say
  exact ⟨fun l hl => hl⟩

theorem say_messageTypeT : Say Good Good (ToldText NoWord) readMessageType := by
  unfold readMessageType
  say
  refine Say.bind say_leadingDot.from fun _ => ?_
  say
  exact Say.bind (say_justIn (by assumption) (say_messageTypeLoop _ _)) (fun _ => say_pure _)

theorem say_messageType : Say Good Good Told readMessageType := say_messageTypeT.told
macro_rules | `(tactic| saylem) => `(tactic| exact Lexer.say_messageType)

theorem say_mergeLoop (q : Char) (n : Nat) (w : Str) : Say Good Good Told (mergeLoop q n w) := by
  induction n generalizing w with
  | zero => exact say_stop _
  | succ n ih => unfold mergeLoop; say
macro_rules | `(tactic| saylem) => `(tactic| exact Lexer.say_mergeLoop _ _ _)

theorem say_merge : Say Good Good Told mergeMultilineStrLit := by unfold mergeMultilineStrLit; say
macro_rules | `(tactic| saylem) => `(tactic| exact Lexer.say_merge)

theorem noWord_lit {t : Token} {x : Str} (h : Lexed .lit t x) (hi : t ≠ .ident) (hb : t ≠ .boolLit)
    (hf : t ≠ .floatLit) : NoWord x := by
  intro hw
  cases lexed_word h hw with
  | bool _ _ => exact hb rfl
  | float _ _ => exact hf rfl
  | keyword t h1 h2 => simp [Mode.lit] at h1
  | ident => exact hi rfl

theorem say_constant (b : Bool) : Say Good Good Told (readConstant b) := by
  unfold readConstant
  say
  · rename_i h1 _ _ _ _ _ _ _ h2 h3
    refine fault_mk (k := .number) ?_
    rintro (h | h)
    · exact lexed_int h2 rfl (fun e => h3 (.inl e)) h
    · exact lexed_float h2 rfl (fun e => h3 (.inr e)) h
  · rename_i h0 _ h1 h2 h3 h4 h5
    refine fault_mk (k := .constant) ?_
    rintro (h | h | h | h | h | h)
    · exact lexed_str h0 h1 h
    · exact lexed_int h0 rfl (fun e => h4 (.inl e)) h
    · exact lexed_float h0 rfl (fun e => h4 (.inr e)) h
    · exact noWord_lit h0 h3 h2 (fun e => h4 (.inr e)) h
    · exact h5 (.inl h)
    · exact h5 (.inr h)
macro_rules | `(tactic| saylem) => `(tactic| exact Lexer.say_constant _)

end Verif.Lexer

namespace Verif.Parser
open Spec Scanner Lexer

theorem say_peekKeyword : Say Good Good Told peekKeyword := by unfold peekKeyword; say
macro_rules | `(tactic| saylem) => `(tactic| exact Parser.say_peekKeyword)

theorem say_isEOF : Say Good Good Told isEOF := by unfold isEOF; say
macro_rules | `(tactic| saylem) => `(tactic| exact Parser.say_isEOF)

theorem say_comment : Say Good Good (fun _ => Good) parseComment := by
  unfold parseComment
  say
  refine Say.attempt (Q := Good) (E' := fun _ => Good) ⟨fun l hl => hl.good⟩ (fun _ => ?_) (fun _ => ?_)
  · say
  · refine say_unNext' ?_
    exact ⟨fun l hl => hl⟩

theorem say_commentsLoop (n : Nat) (cs : List Comment) : Say Good Good Told (parseCommentsLoop n cs) := by
  induction n generalizing cs with
  | zero => exact say_stop _
  | succ n ih =>
    unfold parseCommentsLoop
    exact Say.attempt say_comment (fun _ => ih _) (fun _ => say_pure _)
macro_rules | `(tactic| saylem) => `(tactic| exact Parser.say_commentsLoop _ _)

theorem say_comments : Say Good Good Told parseComments := by unfold parseComments; say
macro_rules | `(tactic| saylem) => `(tactic| exact Parser.say_comments)

theorem say_inline : Say Good Good Told parseInlineComment := by
  unfold parseInlineComment
  refine say_position fun _ => ?_
  refine Say.attempt say_comment (fun _ => ?_) (fun _ => say_pure _)
  say
macro_rules | `(tactic| saylem) => `(tactic| exact Parser.say_inline)

theorem say_setInline (v : Visitee) (c : Comment) : Say Good Good Told (setInlineComment v c) := by
  unfold setInlineComment; say
macro_rules | `(tactic| saylem) => `(tactic| exact Parser.say_setInline _ _)

theorem say_maybe (v : Visitee) : Say Good Good Told (maybeScanInlineComment v) := by
  unfold maybeScanInlineComment; say
macro_rules | `(tactic| saylem) => `(tactic| exact Parser.say_maybe _)

theorem say_positionLast {P : Lexer → Prop} [hp : IsGood P] {E : Err → Lexer → Prop} : Say P Good E position :=
  ⟨fun l hl => hp.good l hl⟩

theorem say_txtLast {P : Lexer → Prop} [hp : IsGood P] {E : Err → Lexer → Prop} : Say P Good E txt :=
  ⟨fun l hl => hp.good l hl⟩

theorem say_blockLastPos (cfg : Cfg) : Say Good Good Told (blockLastPos cfg) := by
  unfold blockLastPos
  say
  exact say_positionLast
macro_rules | `(tactic| saylem) => `(tactic| exact Parser.say_blockLastPos _)

theorem say_syntax : Say Good Good Told parseSyntax := by
  unfold parseSyntax
  say
  rename_i h
  exact fault_mk (k := .texts [c!"proto3", c!"proto2"]) (by simpa [Kind.Has] using h)
macro_rules | `(tactic| saylem) => `(tactic| exact Parser.say_syntax)

theorem say_edition : Say Good Good Told parseEdition := by unfold parseEdition; say
macro_rules | `(tactic| saylem) => `(tactic| exact Parser.say_edition)

theorem noWord_fault {e : String} [hk : Entry e (Kind.word [])] (x : Str) (h : NoWord x) : Fault e x :=
  fault_mk (hk := hk) (by simpa [Kind.Has] using h)

theorem say_package : Say Good Good Told parsePackage := by
  unfold parsePackage
  say
  refine say_orUnexpected say_fullIdentT (noWord_fault (e := "fullIdent")) (fun _ => ?_)
  say
macro_rules | `(tactic| saylem) => `(tactic| exact Parser.say_package)

theorem say_importModifier : Say Good Good Told parseImportModifier := by unfold parseImportModifier; say
macro_rules | `(tactic| saylem) => `(tactic| exact Parser.say_importModifier)

theorem say_import : Say Good Good Told parseImport := by unfold parseImport; say
macro_rules | `(tactic| saylem) => `(tactic| exact Parser.say_import)

theorem say_optionNameDot (cfg : Cfg) : Say Good Good Told (optionNameDot cfg) := by unfold optionNameDot; say
macro_rules | `(tactic| saylem) => `(tactic| exact Parser.say_optionNameDot _)

theorem say_optionNamePart (cfg : Cfg) {e : String} [he : Entry e (Kind.word [c!"("])] :
    Say (JustIn {}) Good Told (optionNamePart cfg e) := by
  unfold optionNamePart
  refine say_open fun _ _ _ => ?_
  say
  rename_i h1 h2 h3
  refine fault_mk (k := .word [c!"("]) ?_
  simp only [Kind.Has, List.mem_singleton]
  rintro (h | h)
  · exact noWord h1 h2 h
  · exact lexed_punct h1 (k := .leftParen) rfl (by decide) h3 h

theorem say_optionNameLoop (cfg : Cfg) (n : Nat) (w : Str) : Say Good Good Told (optionNameLoop cfg n w) := by
  induction n generalizing w with
  | zero => exact say_stop _
  | succ n ih =>
    unfold optionNameLoop
    say
    exact (say_justIn (by assumption) (say_optionNamePart cfg)).bind fun _ => ih _
macro_rules | `(tactic| saylem) => `(tactic| exact Parser.say_optionNameLoop _ _ _)

theorem say_optionName (cfg : Cfg) : Say Good Good Told (parseOptionName cfg) := by
  unfold parseOptionName
  say
  refine (say_justIn (by assumption) (say_optionNamePart cfg)).bind fun _ => ?_
  say
macro_rules | `(tactic| saylem) => `(tactic| exact Parser.say_optionName _)

theorem say_cloudSeparator (cfg : Cfg) : Say Good Good Told (cloudSeparator cfg) := by
  unfold cloudSeparator
  say
  · rename_i h1 h2 h3
    exact fault_punct h1 (k := .colon) (by rw [h2]; decide) rfl (by decide)
  · rename_i h1 h2 h3 h4
    refine fault_mk (k := .texts [c!"{", c!":"]) ?_
    simp only [Kind.Has, List.mem_cons, List.not_mem_nil, or_false]
    rintro (h | h)
    · exact lexed_punct h1 (k := .leftCurly) rfl (by decide) h2 h
    · exact lexed_punct h1 (k := .colon) rfl (by decide) h3 h
  · rename_i h1 h2 h3 h4
    exact fault_punct h1 (k := .colon) h3 rfl (by decide)
macro_rules | `(tactic| saylem) => `(tactic| exact Parser.say_cloudSeparator _)

theorem say_cloudNeedSemi (cfg : Cfg) (b : Bool) : Say Good Good Told (cloudNeedSemi cfg b) := by
  unfold cloudNeedSemi; say
macro_rules | `(tactic| saylem) => `(tactic| exact Parser.say_cloudNeedSemi _ _)

theorem say_cloudClose (cfg : Cfg) : Say Good Good Told (cloudClose cfg) := by unfold cloudClose; say
macro_rules | `(tactic| saylem) => `(tactic| exact Parser.say_cloudClose _)

section
variable {constant : P Str} (hc : Say Good Good Told constant)
include hc

theorem say_cloudLoop (cfg : Cfg) (n : Nat) (w : Str) : Say Good Good Told (cloudLoop cfg constant n w) := by
  induction n generalizing w with
  | zero => exact say_stop _
  | succ n ih => unfold cloudLoop; say

theorem say_cloud (cfg : Cfg) : Say Good Good Told (parseCloud cfg constant) := by
  have := say_cloudLoop hc
  unfold parseCloud
  say

theorem say_constantsLoop (n : Nat) (w : Str) : Say Good Good Told (constantsLoop constant n w) := by
  induction n generalizing w with
  | zero => exact say_stop _
  | succ n ih => unfold constantsLoop; say

theorem say_constants : Say Good Good Told (parseOptionConstants constant) := by
  have := say_constantsLoop hc
  unfold parseOptionConstants
  say
end

theorem brace_not_constant {c : Char} (hc : c = '{' ∨ c = '[') : ¬ Kind.constant.Has [c] := by
  rintro (h | h | h | h | h | h)
  · obtain ⟨d, e, r, h1, h2⟩ := str_head h; simp at h1
  · obtain ⟨d, r, h1, h2⟩ := intLit_head h
    simp only [List.cons.injEq] at h1
    rcases hc with rfl | rfl <;> rw [← h1.1] at h2 <;> revert h2 <;> decide
  · rcases floatLit_head h with ⟨d, r, h1, h2⟩ | h | h
    · simp only [List.cons.injEq] at h1
      rcases hc with rfl | rfl <;> rw [← h1.1] at h2 <;> revert h2 <;> decide
    · simp at h
    · simp at h
  · obtain ⟨d, r, h1, h2⟩ := word_start h
    simp only [List.cons.injEq] at h1
    rw [← h1.1] at h2
    revert h2
    rcases hc with rfl | rfl <;> unfold WordStart <;> decide
  · rcases hc with rfl | rfl <;> simp at h
  · rcases hc with rfl | rfl <;> simp at h

theorem say_optionConstant (cfg : Cfg) (d : Nat) : Say Good Good Told (optionConstant cfg d) := by
  induction d with
  | zero => exact say_stop _
  | succ d ih =>
    have h1 := say_cloud ih
    have h2 := say_constants ih
    unfold optionConstant
    refine say_peekNow fun t x hx => Say.ite (fun ht => Say.ite (fun _ => ?_) (fun _ => ?_))
      (fun _ => Say.ite (fun ht => Say.ite (fun _ => ?_) (fun _ => ?_)) (fun _ => ?_))
    · refine say_unexpected (fault_mk (k := .constant) ?_)
      subst ht
      rw [lexed_spell hx rfl]
      exact brace_not_constant (.inl rfl)
    · say
    · refine say_unexpected (fault_mk (k := .constant) ?_)
      subst ht
      rw [lexed_spell hx rfl]
      exact brace_not_constant (.inr rfl)
    · say
    · say
macro_rules | `(tactic| saylem) => `(tactic| exact Parser.say_optionConstant _ _)

theorem say_parseOptionConstant (cfg : Cfg) : Say Good Good Told (parseOptionConstant cfg) := by
  unfold parseOptionConstant; say
macro_rules | `(tactic| saylem) => `(tactic| exact Parser.say_parseOptionConstant _)

theorem say_option (cfg : Cfg) : Say Good Good Told (parseOption cfg) := by unfold parseOption; say
macro_rules | `(tactic| saylem) => `(tactic| exact Parser.say_option _)

theorem say_typeT : Say Good Good (ToldText NoWord) parseType := by
  unfold parseType
  say
  exact say_messageTypeT.from
macro_rules
  | `(tactic| saystep) => `(tactic| with_reducible
      refine say_orUnexpected Parser.say_typeT (Parser.noWord_fault (e := "type")) (fun _ => ?_))

abbrev NoInt (x : Str) : Prop := ¬ IntLit x

theorem say_fieldNumberT : Say Good Good (ToldText NoInt) parseFieldNumber := by
  unfold parseFieldNumber
  refine say_expectT (.with_ _) (fun t x h ht => ⟨fault_int h ht, lexed_int h rfl ht⟩) (fun _ _ => ?_)
  exact say_txtLast

theorem noInt_fault (x : Str) (h : NoInt x) : Fault "fieldNumber" x :=
  fault_mk (k := .int []) (by simpa [Kind.Has] using h)

macro_rules
  | `(tactic| saystep) => `(tactic| with_reducible
      refine say_orUnexpected Parser.say_fieldNumberT Parser.noInt_fault (fun _ => ?_))

theorem say_fieldOption (cfg : Cfg) : Say Good Good Told (parseFieldOption cfg) := by unfold parseFieldOption; say
macro_rules | `(tactic| saylem) => `(tactic| exact Parser.say_fieldOption _)

theorem say_fieldOptionsLoop (cfg : Cfg) {e : String} [he : Entry e (Kind.phrase)] (n : Nat) (w : List FieldOption) :
    Say Good Good Told (fieldOptionsLoop cfg e n w) := by
  induction n generalizing w with
  | zero => exact say_stop _
  | succ n ih =>
    unfold fieldOptionsLoop
    say
macro_rules | `(tactic| saylem) => `(tactic| exact Parser.say_fieldOptionsLoop _ _ _)

theorem say_fieldOptions (cfg : Cfg) : Say Good Good Told (parseFieldOptions cfg) := by unfold parseFieldOptions; say
macro_rules | `(tactic| saylem) => `(tactic| exact Parser.say_fieldOptions _)

theorem say_fieldOptionsOption (cfg : Cfg) : Say Good Good Told (parseFieldOptionsOption cfg) := by
  unfold parseFieldOptionsOption; say
macro_rules | `(tactic| saylem) => `(tactic| exact Parser.say_fieldOptionsOption _)

theorem say_label : Say Good Good Told parseLabel := by unfold parseLabel; say
macro_rules | `(tactic| saylem) => `(tactic| exact Parser.say_label)

theorem say_field (cfg : Cfg) : Say Good Good Told (parseField cfg) := by unfold parseField; say
macro_rules | `(tactic| saylem) => `(tactic| exact Parser.say_field _)

theorem say_keyType : Say Good Good Told parseKeyType := by
  unfold parseKeyType
  say
  rename_i h
  exact fault_mk (k := .texts [c!"int32", c!"int64", c!"uint32", c!"uint64", c!"sint32", c!"sint64",
    c!"fixed32", c!"fixed64", c!"sfixed32", c!"sfixed64", c!"bool", c!"string"]) h
macro_rules | `(tactic| saylem) => `(tactic| exact Parser.say_keyType)

theorem say_mapField (cfg : Cfg) : Say Good Good Told (parseMapField cfg) := by unfold parseMapField; say
macro_rules | `(tactic| saylem) => `(tactic| exact Parser.say_mapField _)

theorem say_oneofField (cfg : Cfg) : Say Good Good Told (parseOneofField cfg) := by unfold parseOneofField; say
macro_rules | `(tactic| saylem) => `(tactic| exact Parser.say_oneofField _)

theorem say_oneofElement (cfg : Cfg) (cs : List Comment) : Say Good Good Told (parseOneofElement cfg cs) := by
  unfold parseOneofElement; say
macro_rules | `(tactic| saylem) => `(tactic| exact Parser.say_oneofElement _ _)

theorem say_oneofLoop (cfg : Cfg) (n : Nat) (a : List OneofField) (b : List OptionStmt) :
    Say Good Good Told (oneofLoop cfg n a b) := by
  induction n generalizing a b with
  | zero => exact say_stop _
  | succ n ih => unfold oneofLoop; say
macro_rules | `(tactic| saylem) => `(tactic| exact Parser.say_oneofLoop _ _ _ _)

theorem say_oneof (cfg : Cfg) : Say Good Good Told (parseOneof cfg) := by unfold parseOneof; say
macro_rules | `(tactic| saylem) => `(tactic| exact Parser.say_oneof _)

theorem say_range : Say Good Good Told parseRange := by
  unfold parseRange
  say
  · exact fault_int (by assumption) (by assumption)
  · rename_i h1 h2
    refine fault_mk (k := .int [c!"max"]) ?_
    simp only [Kind.Has, List.mem_singleton]
    rintro (h | h)
    · exact lexed_int h1 rfl (fun e => h2 (.inl e)) h
    · exact h2 (.inr h)
macro_rules | `(tactic| saylem) => `(tactic| exact Parser.say_range)

theorem say_rangesLoop (n : Nat) (w : List Range) : Say Good Good Told (rangesLoop n w) := by
  induction n generalizing w with
  | zero => exact say_stop _
  | succ n ih => unfold rangesLoop; say
macro_rules | `(tactic| saylem) => `(tactic| exact Parser.say_rangesLoop _ _)

theorem say_ranges : Say Good Good Told parseRanges := by unfold parseRanges; say
macro_rules | `(tactic| saylem) => `(tactic| exact Parser.say_ranges)

theorem say_quoted : Say Good Good Told parseQuotedFieldName := by
  unfold parseQuotedFieldName
  say
  · exact fault_str (by assumption) (by assumption)
  · exact say_txtLast
macro_rules | `(tactic| saylem) => `(tactic| exact Parser.say_quoted)

theorem say_fieldName : Say Good Good Told parseFieldName := by
  unfold parseFieldName
  say
  · rename_i h1 h2
    refine fault_mk (k := .strOrWord) ?_
    rintro (h | h)
    · exact lexed_str h1 (lexed_noStr h1 rfl) h
    · exact noWord h1 h2 h
  · exact say_txtLast
macro_rules | `(tactic| saylem) => `(tactic| exact Parser.say_fieldName)

theorem say_fieldNamesLoop (n : Nat) (w : List Str) : Say Good Good Told (fieldNamesLoop n w) := by
  induction n generalizing w with
  | zero => exact say_stop _
  | succ n ih => unfold fieldNamesLoop; say
macro_rules | `(tactic| saylem) => `(tactic| exact Parser.say_fieldNamesLoop _ _)

theorem say_fieldNames : Say Good Good Told parseFieldNames := by unfold parseFieldNames; say
macro_rules | `(tactic| saylem) => `(tactic| exact Parser.say_fieldNames)

theorem say_reservedBody : Say Good Good Told parseReservedBody := by unfold parseReservedBody; say
macro_rules | `(tactic| saylem) => `(tactic| exact Parser.say_reservedBody)

theorem say_reserved : Say Good Good Told parseReserved := by unfold parseReserved; say
macro_rules | `(tactic| saylem) => `(tactic| exact Parser.say_reserved)

theorem say_declItem (a : DeclAcc) : Say (JustIn .kw) Good Told (parseDeclItem a) := by
  unfold parseDeclItem
  refine say_open fun _ _ _ => ?_
  say
  rename_i x h0 h1 h2 h3 h4 h5
  by_cases hx : x = c!"}"
  · exact .inr (.inr ⟨rfl, hx⟩)
  refine fault_mk (k := .texts [c!"number", c!"full_name", c!"type", c!"repeated", c!"reserved", c!"}"]) ?_
  simp only [Kind.Has, List.mem_cons, List.not_mem_nil, or_false]
  rintro (h | h | h | h | h | h)
  · exact lexed_keyword h0 rfl rfl rfl (k := .kNumber) rfl h1 h
  · exact lexed_keyword h0 rfl rfl rfl (k := .kFullName) rfl h2 h
  · exact lexed_keyword h0 rfl rfl rfl (k := .kType) rfl h3 h
  · exact lexed_keyword h0 rfl rfl rfl (k := .kRepeated) rfl h4 h
  · exact lexed_keyword h0 rfl rfl rfl (k := .kReserved) rfl h5 h
  · exact hx h

theorem say_declLoop (n : Nat) (a : DeclAcc) : Say Good Good Told (declLoop n a) := by
  induction n generalizing a with
  | zero => exact say_stop _
  | succ n ih =>
    unfold declLoop
    say <;> exact (say_justIn (by assumption) (say_declItem a)).bind fun _ => ih _
macro_rules | `(tactic| saylem) => `(tactic| exact Parser.say_declLoop _ _)

theorem say_declaration : Say Good Good Told parseDeclaration := by unfold parseDeclaration; say
macro_rules | `(tactic| saylem) => `(tactic| exact Parser.say_declaration)

theorem say_declarationsLoop (n : Nat) (a : List Declaration) : Say Good Good Told (declarationsLoop n a) := by
  induction n generalizing a with
  | zero => exact say_stop _
  | succ n ih =>
    unfold declarationsLoop
    say
    exact say_unexpected' fun _ => .inr (.inl rfl)
macro_rules | `(tactic| saylem) => `(tactic| exact Parser.say_declarationsLoop _ _)

theorem say_declarations : Say Good Good Told parseDeclarations := by unfold parseDeclarations; say
macro_rules | `(tactic| saylem) => `(tactic| exact Parser.say_declarations)

theorem say_extensions : Say Good Good Told parseExtensions := by unfold parseExtensions; say
macro_rules | `(tactic| saylem) => `(tactic| exact Parser.say_extensions)

theorem say_recover {e : Err} (he : Faults Fault e) : Say Good Good Told (recoverEmpty e) := by
  unfold recoverEmpty; say
macro_rules | `(tactic| saylem) => `(tactic| exact Parser.say_recover (by assumption))

theorem say_closeBody (cfg : Cfg) (cs : List Comment) (ss : List Visitee) (i : Option Comment) :
    Say Good Good Told (closeBody cfg cs ss i) := by unfold closeBody; say
macro_rules | `(tactic| saylem) => `(tactic| exact Parser.say_closeBody _ _ _ _)

theorem say_enumValueOptions (cfg : Cfg) : Say Good Good Told (parseEnumValueOptions cfg) := by
  unfold parseEnumValueOptions; say
macro_rules | `(tactic| saylem) => `(tactic| exact Parser.say_enumValueOptions _)

theorem say_sign : Say Good Good Told parseSign := by unfold parseSign; say
macro_rules | `(tactic| saylem) => `(tactic| exact Parser.say_sign)

theorem say_enumField (cfg : Cfg) : Say Good Good Told (parseEnumField cfg) := by unfold parseEnumField; say
macro_rules | `(tactic| saylem) => `(tactic| exact Parser.say_enumField _)

theorem say_enumStmt (cfg : Cfg) (cs : List Comment) (t : Token) : Say Good Good Told (enumStmt cfg cs t) := by
  unfold enumStmt; say
macro_rules | `(tactic| saylem) => `(tactic| exact Parser.say_enumStmt _ _ _)

theorem say_enumLoop (cfg : Cfg) (i : Option Comment) (n : Nat) (w : List Visitee) :
    Say Good Good Told (enumLoop cfg i n w) := by
  induction n generalizing w with
  | zero => exact say_stop _
  | succ n ih => unfold enumLoop; say
macro_rules | `(tactic| saylem) => `(tactic| exact Parser.say_enumLoop _ _ _ _)

theorem say_enumBody (cfg : Cfg) : Say Good Good Told (parseEnumBody cfg) := by unfold parseEnumBody; say
macro_rules | `(tactic| saylem) => `(tactic| exact Parser.say_enumBody _)

theorem say_enum (cfg : Cfg) : Say Good Good Told (parseEnum cfg) := by unfold parseEnum; say
macro_rules | `(tactic| saylem) => `(tactic| exact Parser.say_enum _)

theorem say_extendStmt (cfg : Cfg) (cs : List Comment) : Say Good Good Told (extendStmt cfg cs) := by
  unfold extendStmt; say
macro_rules | `(tactic| saylem) => `(tactic| exact Parser.say_extendStmt _ _)

theorem say_extendLoop (cfg : Cfg) (i : Option Comment) (n : Nat) (w : List Visitee) :
    Say Good Good Told (extendLoop cfg i n w) := by
  induction n generalizing w with
  | zero => exact say_stop _
  | succ n ih => unfold extendLoop; say
macro_rules | `(tactic| saylem) => `(tactic| exact Parser.say_extendLoop _ _ _ _)

theorem say_extendBody (cfg : Cfg) : Say Good Good Told (parseExtendBody cfg) := by unfold parseExtendBody; say
macro_rules | `(tactic| saylem) => `(tactic| exact Parser.say_extendBody _)

theorem say_extend (cfg : Cfg) : Say Good Good Told (parseExtend cfg) := by unfold parseExtend; say
macro_rules | `(tactic| saylem) => `(tactic| exact Parser.say_extend _)

theorem say_peekIsGroup : Say Good Good Told peekIsGroup :=
  ⟨fun _ hl => (peekIsGroup_sat hl).mono (fun _ _ h => h.1.good) (fun _ _ h => h)⟩
macro_rules | `(tactic| saylem) => `(tactic| exact Parser.say_peekIsGroup)

theorem not_capital {x : Str} (h : (!isCapitalized x) = true) : ∀ c ∈ x.head?, c ∉ c!"ABCDEFGHIJKLMNOPQRSTUVWXYZ" := by
  intro c hx hc
  cases x with
  | nil => simp at hx
  | cons d r =>
    simp only [List.head?_cons, Option.mem_some_iff] at hx
    subst hx
    have := mem_capitals.1 hc
    simp [isCapitalized, isUpper, this] at h

section
variable {body : P Body} (hb : Say Good Good Told body)
include hb

theorem say_groupWith : Say Good Good Told (parseGroupFieldWith body) := by
  unfold parseGroupFieldWith
  say
  refine .inl (.group rfl (lexed_isIdent (by assumption)) (not_capital (by assumption)))

theorem say_messageWith : Say Good Good Told (parseMessageWith body) := by unfold parseMessageWith; say

theorem say_fieldStmt (cfg : Cfg) (cs : List Comment) : Say Good Good Told (fieldStmt cfg body cs) := by
  have := say_groupWith hb
  unfold fieldStmt; say

theorem say_messageStmt (cfg : Cfg) (cs : List Comment) (t : Token) :
    Say Good Good Told (messageStmt cfg body cs t) := by
  have h1 := say_messageWith hb
  have h2 := say_fieldStmt hb cfg
  unfold messageStmt; say

theorem say_messageLoop (cfg : Cfg) (i : Option Comment) (n : Nat) (w : List Visitee) :
    Say Good Good Told (messageLoop cfg body i n w) := by
  have h1 := say_messageStmt hb cfg
  induction n generalizing w with
  | zero => exact say_stop _
  | succ n ih => unfold messageLoop; say

theorem say_messageBodyWith (cfg : Cfg) : Say Good Good Told (messageBodyWith cfg body) := by
  have h1 := say_messageLoop hb cfg
  unfold messageBodyWith; say
end

theorem say_messageBody (cfg : Cfg) (d : Nat) : Say Good Good Told (messageBody cfg d) := by
  induction d with
  | zero => exact say_stop _
  | succ d ih => unfold messageBody; exact say_messageBodyWith ih cfg

theorem say_message (cfg : Cfg) : Say Good Good Told (parseMessage cfg) := say_messageWith (say_messageBody _ _)
macro_rules | `(tactic| saylem) => `(tactic| exact Parser.say_message _)

theorem say_rpcMessage : Say Good Good Told parseRPCMessage := by unfold parseRPCMessage; say
macro_rules | `(tactic| saylem) => `(tactic| exact Parser.say_rpcMessage)

theorem say_rpcOptionsStmt (cfg : Cfg) : Say Good Good Told (rpcOptionsStmt cfg) := by unfold rpcOptionsStmt; say
macro_rules | `(tactic| saylem) => `(tactic| exact Parser.say_rpcOptionsStmt _)

theorem say_rpcOptionsLoop (cfg : Cfg) (n : Nat) (w : List OptionStmt) :
    Say Good Good Told (rpcOptionsLoop cfg n w) := by
  induction n generalizing w with
  | zero => exact say_stop _
  | succ n ih => unfold rpcOptionsLoop; say
macro_rules | `(tactic| saylem) => `(tactic| exact Parser.say_rpcOptionsLoop _ _ _)

theorem say_rpcOptions (cfg : Cfg) : Say Good Good Told (parseRPCOptions cfg) := by unfold parseRPCOptions; say
macro_rules | `(tactic| saylem) => `(tactic| exact Parser.say_rpcOptions _)

theorem say_rpc (cfg : Cfg) : Say Good Good Told (parseRPC cfg) := by
  unfold parseRPC
  say
  rename_i h1 _ _ h2 h3
  refine fault_mk (k := .texts [c!"{", c!";"]) ?_
  simp only [Kind.Has, List.mem_cons, List.not_mem_nil, or_false]
  rintro (h | h)
  · exact lexed_punct h1 (k := .leftCurly) rfl (by decide) h2 h
  · exact lexed_punct h1 (k := .semicolon) rfl (by decide) h3 h
macro_rules | `(tactic| saylem) => `(tactic| exact Parser.say_rpc _)

theorem say_serviceStmt (cfg : Cfg) (cs : List Comment) (t : Token) : Say Good Good Told (serviceStmt cfg cs t) := by
  unfold serviceStmt; say
macro_rules | `(tactic| saylem) => `(tactic| exact Parser.say_serviceStmt _ _ _)

theorem say_serviceLoop (cfg : Cfg) (i : Option Comment) (n : Nat) (w : List Visitee) :
    Say Good Good Told (serviceLoop cfg i n w) := by
  induction n generalizing w with
  | zero => exact say_stop _
  | succ n ih => unfold serviceLoop; say
macro_rules | `(tactic| saylem) => `(tactic| exact Parser.say_serviceLoop _ _ _ _)

theorem say_serviceBody (cfg : Cfg) : Say Good Good Told (parseServiceBody cfg) := by unfold parseServiceBody; say
macro_rules | `(tactic| saylem) => `(tactic| exact Parser.say_serviceBody _)

theorem say_service (cfg : Cfg) : Say Good Good Told (parseService cfg) := by unfold parseService; say
macro_rules | `(tactic| saylem) => `(tactic| exact Parser.say_service _)

theorem say_bom : Say Good Good Told parseBOM := by unfold parseBOM; say
macro_rules | `(tactic| saylem) => `(tactic| exact Parser.say_bom)

theorem say_protoStmt (cfg : Cfg) (cs : List Comment) (t : Token) : Say Good Good Told (protoStmt cfg cs t) := by
  unfold protoStmt; say
macro_rules | `(tactic| saylem) => `(tactic| exact Parser.say_protoStmt _ _ _)

theorem say_protoLoop (cfg : Cfg) (n : Nat) (w : List Visitee) : Say Good Good Told (protoLoop cfg n w) := by
  induction n generalizing w with
  | zero => exact say_stop _
  | succ n ih => unfold protoLoop; say
macro_rules | `(tactic| saylem) => `(tactic| exact Parser.say_protoLoop _ _ _)

theorem say_protoBody (cfg : Cfg) : Say Good Good Told (parseProtoBody cfg) := by unfold parseProtoBody; say
macro_rules | `(tactic| saylem) => `(tactic| exact Parser.say_protoBody _)

theorem say_syntaxPart (cs : List Comment) : Say Good Good Told (syntaxPart cs) := by unfold syntaxPart; say
macro_rules | `(tactic| saylem) => `(tactic| exact Parser.say_syntaxPart _)

theorem say_editionPart (cs : List Comment) : Say Good Good Told (editionPart cs) := by unfold editionPart; say
macro_rules | `(tactic| saylem) => `(tactic| exact Parser.say_editionPart _)

theorem say_proto (cfg : Cfg) : Say Good Good Told (parseProto cfg) := by unfold parseProto; say

end Verif.Parser
