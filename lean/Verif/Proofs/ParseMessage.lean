import Verif.Proofs.ParseBody
import Verif.Proofs.Calm

/-!
# Messages and groups: message.go, groupField.go

A failed group is followed by a recovery that may put back more than one token, after which the cursor
need not be where a prefix of the text ends.  Hence the conditions `NoGroup` (the text does not contain
`group`) and `¬ HasEmpty` (the result contains no empty statement).  A calm run (`Proofs/Calm.lean`) has
no such recovery and needs no condition.
-/

set_option backward.isDefEq.respectTransparency false
set_option backward.dsimp.instances true

namespace Verif
open Spec Scanner Lexer
open M (bind_ok run_get)

variable {sm calm : Bool}

/-! ## Looking for a group -/

/-- The text after the next token. -/
def lexRest (m : Mode) (t : Str) : Str := t.drop (lex m t).raw.length

theorem nextSt_inp (m : Mode) (l : Lexer) : (nextSt m l).scanner.inp = lexRest m l.scanner.inp := by
  simp only [nextSt, after_inp, lexRest]

theorem nextSt_token (m : Mode) (l : Lexer) : (nextSt m l).token = (lex m l.scanner.inp).token := rfl
theorem nextSt_text (m : Mode) (l : Lexer) : (nextSt m l).text = (lex m l.scanner.inp).text := rfl

def CurlyAt (t : Str) : Prop := (lex {} t).token = .leftCurly
def NumberAt (t : Str) : Prop := (lex .numberLit t).token = .intLit ∧ CurlyAt (lexRest .numberLit t)
def EqualsAt (t : Str) : Prop := (lex {} t).token = .equals ∧ NumberAt (lexRest {} t)
def NameAt (t : Str) : Prop :=
  (lex {} t).token = .ident ∧ isCapitalized (lex {} t).text = true ∧ EqualsAt (lexRest {} t)
def KeywordAt (t : Str) : Prop := (lex .kw t).token = .kGroup ∧ NameAt (lexRest .kw t)

/-- A label. -/
def IsLabel (t : Token) : Prop := t = .kRepeated ∨ t = .kRequired ∨ t = .kOptional

/-- The text starts with `[ label ] "group" groupName "=" fieldNumber "{"`. -/
def GroupAhead (t : Str) : Prop :=
  (IsLabel (lex .kw t).token ∧ KeywordAt (lexRest .kw t)) ∨ (¬ IsLabel (lex .kw t).token ∧ KeywordAt t)

theorem _root_.Verif.Spec.NoGroup.suffix {t u : Str} (h : NoGroup t) (hs : u <:+ t) : NoGroup u :=
  fun h' => h (h'.trans hs.isInfix)

theorem lexRest_suffix (m : Mode) (t : Str) : lexRest m t <:+ t := List.drop_suffix _ _

theorem keywordAt_infix {t : Str} (h : KeywordAt t) : c!"group" <:+: t := by
  have hb : (lex .kw t).body = c!"group" := by
    have g := got_next (l := { scanner := { inp := t, pos := {} } }) (m := .kw) rfl h.1 (by simp) (by simp)
    exact g.kw rfl
  have := drop_raw .kw t
  refine ⟨(lex .kw t).gap, t.drop (lex .kw t).raw.length, ?_⟩
  rw [← hb]
  exact this.symm

theorem groupAhead_infix {t : Str} (h : GroupAhead t) : ¬ NoGroup t := by
  intro hn
  rcases h with ⟨_, h⟩ | ⟨_, h⟩
  · exact hn ((keywordAt_infix h).trans (lexRest_suffix _ _).isInfix)
  · exact hn (keywordAt_infix h)

namespace Parser

section
variable {H : Halt → Prop} {E : Err → Lexer → Prop} {l : Lexer}

theorem peekGroupCurly_sat (hg : Good l) :
    Sat H (fun b l' => Back l l' ∧ (b = true ↔ CurlyAt l.scanner.inp)) E (peekGroupCurly l) := by
  unfold peekGroupCurly
  refine sat_next hg ?_
  rw [sat_rawText, sat_tok]
  refine sat_unNextTo (m := {}) hg (Back.refl (good_next hg _)) rfl (.inr rfl) (fun l3 hb => ?_)
  exact ⟨hb, by simp [CurlyAt, nextSt_token]⟩

theorem peekGroupNumber_sat (hg : Good l) :
    Sat H (fun b l' => Back l l' ∧ (b = true ↔ NumberAt l.scanner.inp)) E (peekGroupNumber l) := by
  unfold peekGroupNumber
  have hr : parseFieldNumber l = if (nextSt .numberLit l).token = .intLit
      then .ok (nextSt .numberLit l).text (nextSt .numberLit l)
      else (unexpected "intLit" : P Str) (nextSt .numberLit l) := by
    have he : expect nextNumberLit .intLit "intLit" l = if (nextSt .numberLit l).token = .intLit
        then .ok () (nextSt .numberLit l) else (unexpected "intLit" : P Unit) (nextSt .numberLit l) := by
      unfold expect
      refine (bind_ok (run_nextWith hg _)).trans ?_
      refine (bind_ok (run_tok _)).trans ?_
      by_cases h : (nextSt .numberLit l).token = .intLit <;> simp [h] <;> rfl
    unfold parseFieldNumber
    show M.bind (expect nextNumberLit .intLit "intLit") _ l = _
    unfold M.bind
    rw [he]
    by_cases h : (nextSt .numberLit l).token = .intLit <;> simp [h] <;> rfl
  show Sat H _ E (M.bind (M.attempt parseFieldNumber) _ l)
  unfold M.bind M.attempt
  rw [hr]
  by_cases h : (nextSt .numberLit l).token = .intLit
  · simp only [h, if_true]
    rw [sat_rawText]
    refine Sat.bind (peekGroupCurly_sat (good_next hg _)) ?_
    rintro b l2 ⟨h1, h2⟩
    refine sat_unNextTo (m := .numberLit) hg h1 rfl (.inl (by rw [h]; exact ⟨by simp, by simp, by simp⟩)) (fun l3 hb => ?_)
    refine ⟨hb, ?_⟩
    rw [nextSt_inp] at h2
    exact h2.trans ⟨fun h' => ⟨h, h'⟩, fun h' => h'.2⟩
  · simp only [h, if_false]
    show Sat H _ E ((rawText >>= _) (nextSt .numberLit l))
    rw [sat_rawText]
    refine sat_unNextTo (m := .numberLit) hg (Back.refl (good_next hg _)) rfl (.inr rfl) (fun l3 hb => ?_)
    exact ⟨hb, by simp only [Bool.false_eq_true, false_iff]; exact fun h' => h h'.1⟩

theorem peekGroupEquals_sat (hg : Good l) :
    Sat H (fun b l' => Back l l' ∧ (b = true ↔ EqualsAt l.scanner.inp)) E (peekGroupEquals l) := by
  unfold peekGroupEquals
  refine sat_next hg ?_
  rw [sat_rawText, sat_tok]
  refine sat_ite (fun h => ?_) (fun h => ?_)
  · refine sat_unNextTo (m := {}) hg (Back.refl (good_next hg _)) rfl (.inr rfl) (fun l3 hb => ?_)
    exact ⟨hb, by simp only [Bool.false_eq_true, false_iff]; exact fun h' => h h'.1⟩
  · refine Sat.bind (peekGroupNumber_sat (good_next hg _)) ?_
    rintro b l2 ⟨h1, h2⟩
    refine sat_unNextTo (m := {}) hg h1 rfl (.inl (by rw [Decidable.not_not.1 h]; exact ⟨by simp, by simp, by simp⟩)) (fun l3 hb => ?_)
    refine ⟨hb, ?_⟩
    rw [nextSt_inp] at h2
    exact h2.trans ⟨fun h' => ⟨Decidable.not_not.1 h, h'⟩, fun h' => h'.2⟩

theorem peekGroupName_sat (hg : Good l) :
    Sat H (fun b l' => Back l l' ∧ (b = true ↔ NameAt l.scanner.inp)) E (peekGroupName l) := by
  unfold peekGroupName
  refine sat_next hg ?_
  rw [sat_rawText, sat_tok, sat_txt]
  refine sat_ite (fun h => ?_) (fun h => ?_)
  · refine sat_unNextTo (m := {}) hg (Back.refl (good_next hg _)) rfl (.inr rfl) (fun l3 hb => ?_)
    exact ⟨hb, by simp only [Bool.false_eq_true, false_iff]; exact fun h' => h h'.1⟩
  refine sat_ite (fun h1 => ?_) (fun h1 => ?_)
  · refine sat_unNextTo (m := {}) hg (Back.refl (good_next hg _)) rfl (.inr rfl) (fun l3 hb => ?_)
    refine ⟨hb, ?_⟩
    simp only [Bool.false_eq_true, false_iff]
    intro h'
    rw [nextSt_text, h'.2.1] at h1
    simp at h1
  · refine Sat.bind (peekGroupEquals_sat (good_next hg _)) ?_
    rintro b l2 ⟨h2, h3⟩
    refine sat_unNextTo (m := {}) hg h2 rfl (.inl (by rw [Decidable.not_not.1 h]; exact ⟨by simp, by simp, by simp⟩)) (fun l3 hb => ?_)
    refine ⟨hb, ?_⟩
    rw [nextSt_inp] at h3
    exact h3.trans ⟨fun h' => ⟨Decidable.not_not.1 h, by simpa [nextSt_text] using h1, h'⟩, fun h' => h'.2.2⟩

theorem peekGroupKeyword_sat (hg : Good l) :
    Sat H (fun b l' => Back l l' ∧ (b = true ↔ KeywordAt l.scanner.inp)) E (peekGroupKeyword l) := by
  unfold peekGroupKeyword
  refine sat_nextWith hg ?_
  rw [sat_rawText, sat_tok]
  refine sat_ite (fun h => ?_) (fun h => ?_)
  · refine sat_unNextTo (m := .kw) hg (Back.refl (good_next hg _)) rfl (.inr rfl) (fun l3 hb => ?_)
    exact ⟨hb, by simp only [Bool.false_eq_true, false_iff]; exact fun h' => h h'.1⟩
  · refine Sat.bind (peekGroupName_sat (good_next hg _)) ?_
    rintro b l2 ⟨h1, h2⟩
    refine sat_unNextTo (m := .kw) hg h1 rfl (.inl (by rw [Decidable.not_not.1 h]; exact ⟨by simp, by simp, by simp⟩)) (fun l3 hb => ?_)
    refine ⟨hb, ?_⟩
    rw [nextSt_inp] at h2
    exact h2.trans ⟨fun h' => ⟨Decidable.not_not.1 h, h'⟩, fun h' => h'.2⟩

/-- `peekIsGroup` leaves the cursor where it is. -/
theorem peekIsGroup_sat (hg : Good l) :
    Sat H (fun b l' => Back l l' ∧ (b = true ↔ GroupAhead l.scanner.inp)) E (peekIsGroup l) := by
  unfold peekIsGroup
  refine sat_nextWith hg ?_
  rw [sat_tok]
  refine sat_ite (fun h => ?_) (fun h => ?_)
  · rw [sat_rawText]
    refine Sat.bind (peekGroupKeyword_sat (good_next hg _)) ?_
    rintro b l2 ⟨h1, h2⟩
    refine sat_unNextTo (m := .kw) hg h1 rfl
      (.inl (by rcases h with h | h | h <;> rw [h] <;> exact ⟨by simp, by simp, by simp⟩)) (fun l3 hb => ?_)
    refine ⟨hb, ?_⟩
    rw [nextSt_inp] at h2
    refine h2.trans ⟨fun h' => .inl ⟨h, h'⟩, ?_⟩
    rintro (h' | h')
    · exact h'.2
    · exact absurd h h'.1
  · refine sat_unNext ?_
    have hb := back_putBack hg .kw
    refine (peekGroupKeyword_sat hb.good).mono ?_ (fun _ _ h => h)
    rintro b l2 ⟨h1, h2⟩
    refine ⟨hb.trans h1, h2.trans ⟨fun h' => .inr ⟨h, h'⟩, ?_⟩⟩
    rintro (h' | h')
    · exact absurd h'.1 h
    · exact h'.2

end

end Parser

/-! ## Conditions -/

theorem hasEmpty_nil : ¬ HasEmpty [] := by intro h; cases h

theorem hasEmpty_cons {v : Visitee} {vs : List Visitee} : HasEmpty (v :: vs) ↔ HasEmpty [v] ∨ HasEmpty vs := by
  constructor
  · intro h
    cases h with
    | here => exact .inl (.here _ _)
    | there _ _ h => exact .inr h
    | message _ _ h => exact .inl (.message _ _ h)
    | group _ _ h => exact .inl (.group _ _ h)
  · rintro (h | h)
    · cases h with
      | here => exact .here _ _
      | there _ _ h => exact absurd h hasEmpty_nil
      | message _ _ h => exact .message _ _ h
      | group _ _ h => exact .group _ _ h
    · exact .there _ _ h

theorem hasEmpty_message {x : Message} : HasEmpty [.message x] ↔ HasEmpty x.messageBody := by
  constructor
  · intro h
    cases h with
    | there _ _ h => exact absurd h hasEmpty_nil
    | message _ _ h => exact h
  · exact .message _ _

theorem hasEmpty_group {x : GroupField} : HasEmpty [.groupField x] ↔ HasEmpty x.messageBody := by
  constructor
  · intro h
    cases h with
    | there _ _ h => exact absurd h hasEmpty_nil
    | group _ _ h => exact h
  · exact .group _ _

theorem hasEmpty_inl {v : Visitee} {o : Option Comment} (h : HasEmpty [v]) : HasEmpty [v.inl o] := by
  cases o with
  | none => exact h
  | some c => ?_
  cases h with
  | here => exact .here _ _
  | there _ _ h => exact absurd h hasEmpty_nil
  | message _ _ h => exact .message _ _ h
  | group _ _ h => exact .group _ _ h

/-- Nothing was put back twice: there is no group in the text, or the run is calm, or there is no empty
statement in the result. -/
def Clean (calm : Bool) (l : Lexer) (vs : List Visitee) : Prop :=
  (NoGroup l.scanner.inp ∨ calm = true) ∨ ¬ HasEmpty vs

/-- An error return; if the text contains no `group` or the run is calm, the positions of the error are in the
text. -/
structure BadN (calm sm : Bool) (l : Lexer) (e : Err) (l' : Lexer) : Prop where
  good : Good l'
  err : NoGroup l.scanner.inp ∨ calm = true → ErrAt sm l e

theorem BadN.trans' {l l1 l2 : Lexer} {e : Err} (h : NoGroup l.scanner.inp ∨ calm = true → ∃ ts, Took l ts l1)
    (he : BadN calm sm l1 e l2) : BadN calm sm l e l2 := by
  refine ⟨he.good, fun hn => ?_⟩
  obtain ⟨ts, ht⟩ := h hn
  exact (he.err (hn.imp (fun h => h.suffix ht.suffix) id)).trans ht

theorem Bad.badN {l l' : Lexer} {e : Err} (h : Bad sm l e l') : BadN calm sm l e l' := ⟨h.good, fun _ => h.err⟩

instance : ErrRel sm (BadN calm sm) :=
  ⟨fun h hf => hf.trans' (fun _ => ⟨_, h⟩), fun h => h.toFail.bad.badN⟩

theorem Sat.stepB {α β : Type} {H : Halt → Prop} {Q : α → Lexer → Prop} {Q' : β → Lexer → Prop}
    {l0 l : Lexer} {ts : List Tok} {m : P α} {f : α → P β} (ht : Took l0 ts l)
    (h : Sat H Q (Bad sm l) (m l)) (hf : ∀ a l', Q a l' → Sat H Q' (BadN calm sm l0) (f a l')) :
    Sat H Q' (BadN calm sm l0) ((m >>= f) l) :=
  Sat.bind' h (fun _ _ he => ErrRel.trans ht he.badN) hf

namespace Parser

/-- What is asked of the parser for nested bodies: `d` bounds the depth. -/
def BodyOK (calm : Bool) (H : Halt → Prop) (cfg : Cfg) (d : Nat) (body : P Parser.Body) : Prop :=
  ∀ {l : Lexer}, Good l →
    (H .fuel ∨ (NoGroup l.scanner.inp ∧ l.scanner.inp.length < d ∧ l.scanner.inp.length ≤ cfg.fuel)) →
    Sat H (fun r l' => Good l' ∧ ∃ x us cl, x.text = c!"{" ∧ Spec.Body cfg.gram .message r.1 us ∧
        Closed cfg.gram cl r.2.2 ∧
        (Clean calm l r.1 → BlockI cfg.gram cfg.bodyIncludingComments .message true r (x :: us ++ cl) l l'))
      (BadN calm (!cfg.permissive) l) (body l)

/-- What is asked of a statement parser. -/
def StmtOut (calm : Bool) (cfg : Cfg) (cs : List Comment) (l : Lexer) (r : Visitee) (l' : Lexer) : Prop :=
  Good l' ∧ r ≠ .nil ∧ (∀ c, r ≠ .comment c) ∧ inlineOf r = none ∧ (∀ cs', commentsOf r = some cs' → cs' = cs) ∧
    ∃ ts, Toks cfg.gram .message r ts ∧ (Clean calm l [r] → SegOut cfg.gram cfg.bodyIncludingComments l r ts l')

theorem mem_capitals {c : Char} : Capital c ↔ ('A' ≤ c ∧ c ≤ 'Z') := by
  simp only [Capital, List.mem_cons, List.not_mem_nil, or_false, char_eq_iff, char_le_iff,
    Char.reduceToNat]
  omega

theorem capital_of_isCapitalized {w : Str} (h : isCapitalized w = true) :
    ∃ c v, w = c :: v ∧ Capital c := by
  cases w with
  | nil => simp [isCapitalized] at h
  | cons c v =>
    refine ⟨c, v, rfl, ?_⟩
    simp only [isCapitalized, isUpper, decide_eq_true_eq] at h
    exact mem_capitals.2 h

section
variable {H : Halt → Prop} {cfg : Cfg} {d : Nat} {body : P Parser.Body}

theorem fuel_suffix {l l1 : Lexer} {d : Nat} {ts : List Tok} (ht : Took l ts l1)
    (h : H .fuel ∨ (NoGroup l.scanner.inp ∧ l.scanner.inp.length < d ∧ l.scanner.inp.length ≤ cfg.fuel)) :
    H .fuel ∨ (NoGroup l1.scanner.inp ∧ l1.scanner.inp.length < d ∧ l1.scanner.inp.length ≤ cfg.fuel) := by
  have := ht.length
  exact h.imp id (fun ⟨h1, h2, h3⟩ => ⟨h1.suffix ht.suffix, by omega, by omega⟩)

theorem clean_suffix {l l1 : Lexer} {ts : List Tok} (ht : Took l ts l1) {vs : List Visitee}
    (h : Clean calm l vs) : Clean calm l1 vs := h.imp (Or.imp (fun h => h.suffix ht.suffix) id) id

theorem parseMessageWith_sat (hb : BodyOK calm H cfg d body) {k : Ctx} (hk : k = .file ∨ k = .message)
    {l : Lexer} (hg : Good l)
    (hd : H .fuel ∨ (NoGroup l.scanner.inp ∧ l.scanner.inp.length < d ∧ l.scanner.inp.length ≤ cfg.fuel)) :
    Sat H (fun r l' => Good l' ∧ r.inlineComment = none ∧
        ∃ ts, (∀ cs, Toks cfg.gram k (.message { r with comments := cs }) ts) ∧
        (Clean calm l r.messageBody → ∀ cs, SegOut cfg.gram cfg.bodyIncludingComments l
          (.message { r with comments := cs }) ts l'))
      (BadN calm (!cfg.permissive) l) (parseMessageWith body l) := by
  unfold parseMessageWith
  refine step_expect (.with_ .kw) rfl (by simp) (by simp) (Took.refl hg) (fun x1 l1 g1 ht => ?_)
  rw [sat_position]
  refine step_expect .next rfl (by simp) (by simp) ht (fun x2 l2 g2 ht => ?_)
  rw [sat_txt]
  refine Sat.step ht (hb ht.good (fuel_suffix ht hd)) ?_
  rintro ⟨b, c, q⟩ l3 ⟨hg3, x3, us, cl, h1, h2, h3, h4⟩
  refine ⟨hg3, rfl, [x1, x2, x3] ++ us ++ cl, fun cs => .message k _ [x1, x2, x3] us cl hk ?_ ?_ h2 h3.close ?_, fun hc cs => ?_⟩
  · simp [g1.kw rfl, g2.text, h1]
  · show Word l2.text
    rw [← g2.text]; exact g2.reads.1
  · simpa using spans_block (mid := [x2, x3] ++ us) g1.pos h3
  · have hh : ∀ t ∈ [] ++ [x1] ++ [x2], t.text ≠ c!"{" := by
      intro t h
      simp only [List.nil_append, List.cons_append, List.mem_cons, List.not_mem_nil, or_false] at h
      rcases h with rfl | rfl
      · rw [g1.kw rfl]; decide
      · exact word_ne g2.reads.1 curly_not_word
    simpa using blockI_out (v := .message _) ht hh (h4 (clean_suffix ht hc))
      (fun body seg h0 h1 h2 => .message _ body seg (h0 rfl) h1 h2) (fun seg _ h1 h2 h3 => .noMessage _ seg h1 h2 h3)

theorem label_ne {a b c : Bool} {ws : List Str} (h : Labelled a b c ws) : ∀ w ∈ ws, w ≠ c!"{" := by
  cases h <;> decide

theorem int_ne' {w : Str} (h : IntLit w) : w ≠ c!"{" := by
  rintro rfl
  cases h with
  | decimal _ _ h => revert h; decide

theorem parseGroupFieldWith_sat (hb : BodyOK calm H cfg d body)
    {l : Lexer} (hg : Good l)
    (hd : H .fuel ∨ (NoGroup l.scanner.inp ∧ l.scanner.inp.length < d ∧ l.scanner.inp.length ≤ cfg.fuel)) :
    Sat H (fun r l' => Good l' ∧ r.inlineComment = none ∧
        ∃ ts, (∀ cs, Toks cfg.gram .message (.groupField { r with comments := cs }) ts) ∧
        (Clean calm l r.messageBody → ∀ cs, SegOut cfg.gram cfg.bodyIncludingComments l
          (.groupField { r with comments := cs }) ts l'))
      (BadN calm (!cfg.permissive) l) (parseGroupFieldWith body l) := by
  unfold parseGroupFieldWith
  refine sat_nextWith hg ?_
  rw [sat_position]
  refine Sat.bind (parseLabel_sat hg) ?_
  rintro lb l1 ⟨ls, h1, ht, h2⟩
  refine step_expect (.with_ .kw) rfl (by simp) (by simp) ht (fun x2 l2 g2 ht2 => ?_)
  refine step_expect .next rfl (by simp) (by simp) ht2 (fun x3 l3 g3 ht => ?_)
  rw [sat_txt]
  refine sat_ite (fun h => ?_) (fun h => ?_)
  · rw [g3.eq]
    exact sat_unexpected rfl ht2
  have hcap : isCapitalized l3.text = true := by simpa using h
  refine step_expect .next rfl (by simp) (by simp) ht (fun x4 l4 g4 ht => ?_)
  refine Sat.stepR ht (orUnexpected_sat (parseFieldNumber_sat ht.good)) ?_
  rintro num l5 ⟨ns, h5, h6, h7⟩
  have ht := ht.trans h7
  refine Sat.step ht (hb ht.good (fuel_suffix ht hd)) ?_
  rintro ⟨b, c, q⟩ l6 ⟨hg6, x6, us, cl, k1, k2, k3, k4⟩
  obtain ⟨ch, w, e1, e2⟩ := capital_of_isCapitalized hcap
  refine ⟨hg6, rfl, ls ++ [x2, x3, x4] ++ ns ++ [x6] ++ us ++ cl,
    fun cs => .group _ (words ls) ch w (ls ++ [x2, x3, x4] ++ ns ++ [x6]) us cl h1 ?_ ?_ e1 e2 h6 k2 k3.close ?_, fun hc cs => ?_⟩
  · simp [g2.kw rfl, g3.text, g4.punct rfl, h5, k1]
  · show Word l3.text
    rw [← g3.text]; exact g3.reads.1
  · obtain ⟨ps, pb, rfl, hp⟩ := k3.last
    have hh : ∀ y ys, ls ++ [x2] = y :: ys → y.pos = (nextSt .kw l).pos.p := by
      intro y ys e
      rw [e] at ht2
      exact took_head ht2 rfl
    refine ⟨?_, ls ++ [x2, x3, x4] ++ ns ++ [x6] ++ us ++ ps, pb, by simp, hp⟩
    cases ls with
    | nil => exact ⟨x2, _, rfl, hh x2 [] rfl⟩
    | cons y ys => exact ⟨y, _, rfl, hh y (ys ++ [x2]) rfl⟩
  · have hh : ∀ t ∈ ls ++ [x2] ++ [x3] ++ [x4] ++ ns, t.text ≠ c!"{" := by
      intro t h
      simp only [List.mem_append, List.mem_singleton] at h
      rcases h with (((h | rfl) | rfl) | rfl) | h
      · exact label_ne h1 _ (List.mem_map_of_mem h)
      · rw [g2.kw rfl]; decide
      · exact word_ne g3.reads.1 curly_not_word
      · rw [g4.punct rfl]; decide
      · have : t.text ∈ words ns := List.mem_map_of_mem h
        rw [h5] at this
        simp only [List.mem_singleton] at this
        rw [this]
        exact int_ne' h6
    simpa using blockI_out (v := .groupField _) ht hh (k4 (clean_suffix ht hc))
      (fun body seg h0 h1 h2 => .group _ body seg (h0 rfl) h1 h2) (fun seg _ h1 h2 h3 => .noGroup _ seg h1 h2 h3)

theorem messageWords_token {w : Str} (h : w ∈ messageWords) : ∃ t, wordToken .kw w = t ∧
    t ∈ [Token.kEnum, .kMessage, .kOption, .kOneof, .kMap, .kExtend, .kReserved, .kExtensions] := by
  refine ⟨_, rfl, ?_⟩
  revert w
  decide

theorem messageWords_word : ∀ w ∈ messageWords, Word w := by
  have key : ∀ w ∈ messageWords, (w.head?.any (fun c => decide (c ∈ letters)) = true) ∧
      ∀ d ∈ w, d ∈ letters ∨ d ∈ decimals ∨ d = '_' := by decide
  intro w hw
  obtain ⟨h1, h2⟩ := key w hw
  cases w with
  | nil => simp at h1
  | cons c v => exact .mk c v (.inl (by simpa using h1)) (fun d hd => h2 d (by simp [hd]))

theorem fieldStmt_sat (hb : BodyOK calm H cfg d body) {cs : List Comment} {l : Lexer} (hg : Good l)
    (hk : (nextSt .kw l).token ∉ [Token.kEnum, .kMessage, .kOption, .kOneof, .kMap, .kExtend, .kReserved, .kExtensions])
    (hd : H .fuel ∨ (NoGroup l.scanner.inp ∧ l.scanner.inp.length < d ∧ l.scanner.inp.length ≤ cfg.fuel)) :
    Sat H (StmtOut calm cfg cs l) (BadN calm (!cfg.permissive) l) (fieldStmtK calm cfg body cs l) := by
  unfold fieldStmtK
  refine Sat.bind (peekIsGroup_sat hg) ?_
  rintro b l1 ⟨hbk, hgr⟩
  have ht := hbk.took hg
  refine sat_ite (fun h => ?_) (fun h => ?_)
  · have hng : ¬ NoGroup l.scanner.inp := groupAhead_infix (hgr.1 h)
    refine Sat.bind (Q := fun r l2 => (∃ x ts, r = .ok x ∧ Good l2 ∧
          x.inlineComment = none ∧ (∀ cs, Toks cfg.gram .message (.groupField { x with comments := cs }) ts) ∧
          (Clean calm l x.messageBody → ∀ cs, SegOut cfg.gram cfg.bodyIncludingComments l
            (.groupField { x with comments := cs }) ts l2)) ∨ (∃ e, r = .error e ∧ Good l2))
      (Sat.attempt (parseGroupFieldWith_sat hb ht.good (fuel_suffix ht hd)) ?_ ?_) ?_
    · rintro x l2 ⟨h1, h0, ts, h2, h3⟩
      exact .inl ⟨x, ts, rfl, h1, h0, h2, fun hc cs => (h3 (clean_suffix ht hc) cs).back (hbk.tookI hg)⟩
    · rintro e l2 h
      exact .inr ⟨e, rfl, h.good⟩
    rintro r l2 (⟨x, ts, rfl, h1, h0, h2, h3⟩ | ⟨e, rfl, hg2⟩)
    · refine ⟨h1, by simp, by simp, h0, by simp [commentsOf], ts, h2 cs, fun hc => h3 ?_ cs⟩
      exact hc.imp id (fun hc h => hc (.group _ _ h))
    · have hf : H .fuel := hd.resolve_right (fun h => hng h.1)
      unfold recoverK
      cases calm with
      | true => exact hf
      | false => ?_
      refine (recoverEmpty_good hg2).mono ?_ ?_
      · rintro r l3 ⟨rfl, hg3⟩
        refine ⟨hg3, by simp, by simp, rfl, by simp [commentsOf], [⟨c!";", {}⟩], .empty _ _ _ rfl, fun hc => ?_⟩
        rcases hc with (hc | hc) | hc
        · exact absurd hc hng
        · simp at hc
        · exact absurd (.here _ _) hc
      · intro e l3 hg3
        exact ⟨hg3, fun hn => absurd (hn.resolve_right (by simp)) hng⟩
  · refine Sat.bind (Q := fun r l2 => (∃ x ts, r = .ok x ∧ FieldToks cfg.gram x ts ∧ Took l1 ts l2 ∧
          Ended x.info x.inlineComment l2) ∨
        (∃ e, r = .error e ∧ FailC (!cfg.permissive) (BegunField cfg.gram) l e l2))
      (Sat.attempt ((parseField_cut ht.good).and (parseField_ends _ _)) ?_ ?_) ?_
    · rintro x l1 ⟨⟨ts, h3, h4⟩, he⟩
      exact .inl ⟨x, ts, rfl, h3, h4, he⟩
    · rintro e l1 h
      exact .inr ⟨e, rfl, h.trans ht (fun _ _ h => h)⟩
    rintro r l2 (⟨x, ts, rfl, h3, h4, hE⟩ | ⟨e, rfl, hf⟩)
    · have h5 := ht.trans h4
      refine ⟨h5.good, by simp, by simp, hE.inline, by simp [commentsOf], ts, .field _ _ _ (by simp) h3 ?_,
        fun _ => ended_out h5 (fieldToks_spans h3) hE trivial⟩
      rintro - t hm hw
      cases ts with
      | nil => simp at hm
      | cons t' ts =>
        simp only [List.head?_cons, Option.mem_def, Option.some.injEq] at hm
        subst hm
        obtain ⟨_, e1, e2⟩ := messageWords_token hw
        have := (took_word (m := .kw) h5 (messageWords_word _ hw) rfl).1
        rw [this, e1] at hk
        exact hk e2
    · refine (recoverEmpty_sat hf).mono ?_ (fun _ _ h => h.badN)
      rintro r l2 ⟨ts, x, rfl, h3, h4, h5, h6, us, more, k1, k2, k3⟩
      refine ⟨h4.good, by simp, by simp, rfl, by simp [commentsOf], _,
        .junk _ _ _ _ rfl ⟨us, more, k1, k2, k3, fun w hm hw => ?_⟩ h3, fun _ => semi_out h4 h5 h6 trivial⟩
      cases ts with
      | nil => simp at hm
      | cons t' ts =>
        simp only [words_cons, List.head?_cons, Option.mem_def, Option.some.injEq] at hm
        subst hm
        obtain ⟨_, e1, e2⟩ := messageWords_token hw
        have := (took_word (m := .kw) h4 (messageWords_word _ hw) rfl).1
        rw [this, e1] at hk
        exact hk e2

theorem messageStmt_sat (hb : BodyOK calm H cfg d body) {cs : List Comment} {t : Token} {l : Lexer} (hg : Good l)
    (hk : t = (nextSt .kw l).token)
    (hd : H .fuel ∨ (NoGroup l.scanner.inp ∧ l.scanner.inp.length < d ∧ l.scanner.inp.length ≤ cfg.fuel)) :
    Sat H (StmtOut calm cfg cs l) (BadN calm (!cfg.permissive) l) (messageStmtK calm cfg body cs t l) := by
  unfold messageStmtK
  have ht := Took.refl hg
  split
  · refine Sat.stepB ht (parseEnum_sat (.inr rfl) hg) ?_
    rintro x l1 ⟨h0, ts, h1, h2⟩
    exact ⟨(h2 cs).took.good, by simp, by simp, h0, by simp [commentsOf], ts, h1 cs, fun _ => h2 cs⟩
  · refine Sat.step ht (parseMessageWith_sat hb (.inr rfl) hg hd) ?_
    rintro x l1 ⟨hg1, h0, ts, h1, h2⟩
    refine ⟨hg1, by simp, by simp, h0, by simp [commentsOf], ts, h1 cs, fun hc => h2 ?_ cs⟩
    exact hc.imp id (fun hc h => hc (.message _ _ h))
  · refine Sat.stepR ht ((parseOption_sat hg).and (parseOption_ends _ _)) ?_
    rintro x l1 ⟨⟨ts, h1, h2⟩, he⟩
    exact ⟨h2.good, by simp, by simp, he.inline, by simp [commentsOf], ts, .option _ _ _ (by simp) h1,
      fun _ => ended_out h2 (optionToks_spans h1) he trivial⟩
  · refine Sat.stepB ht ((parseOneof_sat hg).mono (fun _ _ h => h) (fun _ _ h => h.bad)) ?_
    rintro x l1 ⟨ts, h1, h2, h0, h3⟩
    exact ⟨h2.good, by simp, by simp, h0, by simp [commentsOf], ts, .oneof _ _ h1, fun _ => h3 _ cs⟩
  · refine Sat.stepR ht ((parseMapField_sat hg).and (parseMapField_ends _ _)) ?_
    rintro x l1 ⟨⟨ts, h1, h2⟩, he⟩
    exact ⟨h2.good, by simp, by simp, he.inline, by simp [commentsOf], ts, .mapField _ _ h1,
      fun _ => ended_out h2 (mapFieldToks_spans h1) he trivial⟩
  · refine Sat.stepB ht (parseExtend_sat (.inr rfl) hg) ?_
    rintro x l1 ⟨h0, ts, h1, h2⟩
    exact ⟨(h2 cs).took.good, by simp, by simp, h0, by simp [commentsOf], ts, h1 cs, fun _ => h2 cs⟩
  · refine Sat.stepB ht (((parseReserved_sat (G := cfg.gram) rfl hg).and (parseReserved_ends _)).mono (fun _ _ h => h) (fun _ _ h => h.bad)) ?_
    rintro x l1 ⟨⟨ts, h1, h2⟩, he⟩
    exact ⟨h2.good, by simp, by simp, he.inline, by simp [commentsOf], ts, .reserved _ _ _ (by simp) h1,
      fun _ => ended_out h2 (reservedToks_spans h1) he trivial⟩
  · refine Sat.stepB ht ((parseExtensions_sat hg).mono (fun _ _ h => h) (fun _ _ h => h.bad)) ?_
    rintro x l1 ⟨ts, h1, h2, h0, h3⟩
    exact ⟨h2.good, by simp, by simp, h0, by simp [commentsOf], ts, .extensions _ _ h1, fun _ => h3 _ _ cs⟩
  · refine fieldStmt_sat hb hg ?_ hd
    rw [← hk]
    simp only [List.mem_cons, List.not_mem_nil, or_false, not_or]
    refine ⟨?_, ?_, ?_, ?_, ?_, ?_, ?_, ?_⟩ <;> (intro h; simp_all)

/-- The outcome of the loop over the statements of a message. -/
def MsgLoopOut (calm : Bool) (cfg : Cfg) (il : Option Comment) (l : Lexer) (vs : List Visitee) (r : Parser.Body)
    (l' : Lexer) : Prop :=
  Good l' ∧ r.2.1 = il ∧ ∃ ws us cl, r.1 = vs ++ ws ∧ Spec.Body cfg.gram .message ws us ∧
    Closed cfg.gram cl r.2.2 ∧
    (Clean calm l ws → LoopI cfg.gram cfg.bodyIncludingComments .message ws us cl r.2.2 l l')

theorem not_hasEmpty_comments (cfg : Cfg) (cs : List Comment) : ¬ HasEmpty (bodyComments cfg cs) := by
  unfold bodyComments
  split
  · induction cs with
    | nil => exact hasEmpty_nil
    | cons c cs ih =>
      intro h
      cases h with
      | there _ _ h => exact ih h
  · exact hasEmpty_nil

theorem messageLoop_sat (hb : BodyOK calm H cfg d body) {il : Option Comment} (n : Nat) :
    ∀ {l : Lexer} {vs : List Visitee}, Good l →
    (H .fuel ∨ (NoGroup l.scanner.inp ∧ l.scanner.inp.length < n ∧ l.scanner.inp.length < d ∧
      l.scanner.inp.length ≤ cfg.fuel)) →
    Sat H (MsgLoopOut calm cfg il l vs) (BadN calm (!cfg.permissive) l) (messageLoopK calm cfg body il n vs l) := by
  induction n with
  | zero =>
    intro l vs _ h
    rcases h with h | h
    · exact h
    · omega
  | succ n ih =>
    intro l vs hg hn
    unfold messageLoopK
    refine stepI_comments (TookI.refl hg) (fun cs l1 ht hnc => ?_)
    simp only [List.nil_append] at ht
    refine sat_peekKeyword ht.good ?_
    have hbk := back_putBack ht.good .kw
    have hnc := hnc.back hbk
    have ht := ht.back hbk
    refine sat_ite (fun h => ?_) (fun h => ?_)
    · refine (closeBody_sat ht.good (by rw [hbk.token]; exact h) hnc).mono ?_ (fun _ _ h => h)
      rintro r l' ⟨cl, h1, h2, h3, h4⟩
      exact ⟨h4.good, h2, _, [], _, h1, bodyComments_body _ _, h3.closed, fun _ => loopI_done ht h3 h4⟩
    · have hk := hbk.token .kw
      generalize putBack .kw l1 = l1' at ht hk hnc
      have htk : Took l [] l1' := by simpa using ht.took
      refine Sat.step htk (messageStmt_sat hb ht.good hk.symm
        (fuel_suffix htk (hn.imp id (fun ⟨h1, _, h2, h3⟩ => ⟨h1, h2, h3⟩)))) ?_
      rintro v l2 ⟨hg2, h2, h3, h0, h0', ts, h1, h4⟩
      have hne := toks_ne h1 h2 h3
      refine Sat.bind (maybeScan_sat hg2 h2 h3) ?_
      rintro v' l3 ⟨o, rfl, ho⟩
      have h8 : Clean calm l [v.inl o] → SegOut cfg.gram cfg.bodyIncludingComments l1' v ts l2 := fun hc =>
        h4 (clean_suffix htk (hc.imp id (fun hc h => hc (hasEmpty_inl h))))
      have h9 : Clean calm l [v.inl o] → Took l ts l3 := by
        intro hc
        simpa using htk.trans ((h8 hc).took.nil_trans ho.nil)
      have hn' : H .fuel ∨ (NoGroup l3.scanner.inp ∧ l3.scanner.inp.length < n ∧ l3.scanner.inp.length < d ∧
          l3.scanner.inp.length ≤ cfg.fuel) := by
        refine hn.imp id (fun ⟨k1, k2, k3, k4⟩ => ?_)
        have ht := h9 (.inl (.inl k1))
        have hl := ht.length
        have : 0 < ts.length := List.length_pos_iff.2 hne
        exact ⟨k1.suffix ht.suffix, by omega, by omega, by omega⟩
      refine (ih ho.took.good hn').mono ?_ (fun _ _ he => he.trans' (fun hn => ⟨_, h9 (.inl hn)⟩))
      rintro r l' ⟨hg', k0, ws, us, cl, k1, k2, k3, k4⟩
      refine ⟨hg', k0, v.inl o :: ws, ts ++ us, cl, by simp [k1], .cons _ _ _ _ _ (toks_inl h1 o) k2 (by simp [Cfg.gram]), k3, fun hc => ?_⟩
      have hc1 : Clean calm l [v.inl o] := hc.imp id (fun hc h => hc (hasEmpty_cons.2 (.inl h)))
      have hc2 : Clean calm l ws := hc.imp id (fun hc h => hc (hasEmpty_cons.2 (.inr h)))
      exact loopI_cons ht hnc h2 h3 h0 h0' h1 (h8 hc1) ho (k4 (clean_suffix (h9 hc1) hc2))

theorem messageBodyWith_sat (hb : BodyOK calm H cfg d body) : BodyOK calm H cfg (d + 1) (messageBodyWithK calm cfg body) := by
  intro l hg hd
  unfold messageBodyWithK
  refine step_expect .next rfl (by simp) (by simp) (Took.refl hg) (fun x1 l1 g1 ht => ?_)
  have hl := ht.length
  simp at hl
  refine Sat.bind (parseInline_sat ht.good) (fun c l2 hi => ?_)
  have ht2 := ht.nil_trans hi.nil
  refine sat_next ht2.good ?_
  rw [sat_tok]
  refine sat_ite (fun h => ?_) (fun h => ?_)
  · have g := got_next (m := {}) rfl h (by simp) (by simp)
    have ht3 := next_took ht2.good (m := {}) rfl (by rw [h]; simp)
    refine Sat.bind (blockLastPos_sat ht3.good (g.punct rfl) rfl
      (got_line rfl (by simp) (by simp) g (g.punct rfl) (by decide))) ?_
    rintro q l5 ⟨ts, h1, h2⟩
    exact ⟨h1.good, x1, [], _, g1.punct rfl, .nil _, h2.closed,
      fun _ => emptyI_block ht g1.token (g1.punct rfl) hi ht3 h h1 h2⟩
  · refine sat_unNext ?_
    have hbk := back_putBack ht2.good {}
    have ht3 := ht2.nil_trans (hbk.took ht2.good)
    have hl := ht3.length
    simp at hl
    refine (Sat.tail (E := BadN calm (!cfg.permissive)) ht3 (messageLoop_sat hb _ ht3.good ?_)).mono ?_ (fun _ _ h => h)
    · exact hd.imp id (fun ⟨h1, h2, h3⟩ => ⟨h1.suffix ht3.suffix, by omega, by omega, by omega⟩)
    · rintro r l' ⟨hg', h0, ws, us, cl, h1, h2, h3, h4⟩
      simp only [List.nil_append] at h1
      subst h1
      exact ⟨hg', x1, us, cl, g1.punct rfl, h2, h3, fun hc => loopI_block ht g1.token (g1.punct rfl) g1.pos hi
        (hbk.tookI ht2.good) h0 (fun _ => (h4 (clean_suffix ht3 hc)).ne (by rw [hbk.token]; exact h))
        (h4 (clean_suffix ht3 hc))⟩

theorem messageBody_sat (d : Nat) : BodyOK calm H cfg d (messageBodyK calm cfg d) := by
  induction d with
  | zero =>
    intro l hg hd
    rcases hd with h | h
    · exact h
    · omega
  | succ d ih => exact messageBodyWith_sat ih

end

end Parser
end Verif
