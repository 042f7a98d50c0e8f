import Verif.Proofs.Steps

/-!
# What a function that fails has read

`FailC sm B l e l'`: an error return from which recovery is possible, and the tokens that the recovery drops satisfy
`B`.  So do the tokens before each place the error reports.
-/

set_option backward.isDefEq.respectTransparency false
set_option backward.dsimp.instances true

namespace Verif
open Spec Scanner Lexer
open M (bind_ok run_get)

@[simp] theorem words_nil : words [] = [] := rfl
@[simp] theorem words_cons (t : Tok) (ts : List Tok) : words (t :: ts) = t.text :: words ts := rfl
@[simp] theorem words_append (a b : List Tok) : words (a ++ b) = words a ++ words b := by
  simp [words]

/-- `Recov`, with a condition on the tokens before the one that is put back. -/
def CutAt (sm : Bool) (B : List Str → Prop) (l l' : Lexer) : Prop :=
  (∃ ts l2, unNext l' = .ok () l2 ∧ Took l ts l2 ∧ B (words ts)) ∨
  (sm = true ∧ (lex {} (l'.scanner.raw ++ l'.scanner.inp)).token ≠ .semicolon)

/-- The position `p` is behind a gap before which exactly some tokens satisfying `B` were taken. -/
def Before (B : List Str → Prop) (l : Lexer) (p : Position) : Prop :=
  ∃ ts l2 g r cs, Took l ts l2 ∧ B (words ts) ∧ l2.scanner.inp = g ++ r ∧
    Gap true r g cs ∧ p = (l2.scanner.pos.advanceAll g).p

/-- The tokens before each position of an error satisfy `B`.  With `sm` (strict mode) nothing is said of the second
part of an error that was reported after an attempt to recover. -/
inductive ErrsAt (sm : Bool) (B : List Str → Prop) (l : Lexer) : Err → Prop
  | single (p : Position) (s : String) (f : Found) : Before B l p → ErrsAt sm B l (.single p s f)
  | pair (a b : Err) : ErrsAt sm B l a → ErrsAt sm B l b → ErrsAt sm B l (.pair a b)
  | first (a b : Err) : sm = true → ErrsAt sm B l a → ErrsAt sm B l (.pair a b)

/-- An error return from which recovery is possible; what it drops. -/
structure FailC (sm : Bool) (B : List Str → Prop) (l : Lexer) (e : Err) (l' : Lexer) : Prop
    extends Fail sm l e l' where
  cut : CutAt sm B l l'
  errs : ErrsAt sm B l e
  here : Before B l l'.pos.p

/-- The word lists that begin one of `R`. -/
def Begins {α : Type} (R : α → List Str → Prop) (ws : List Str) : Prop := ∃ s more, R s (ws ++ more)

/-- The word list is one of `R`, or it begins one of them and the input ends there. -/
def Partly {α : Type} (R : α → List Str → Prop) (r : α) (l' : Lexer) (ws : List Str) : Prop :=
  R r ws ∨ (l'.scanner.inp = [] ∧ Begins R ws)

theorem Partly.whole {α : Type} {R : α → List Str → Prop} {r : α} {l' : Lexer} {ws : List Str}
    (h : Partly R r l' ws) (hne : l'.scanner.inp ≠ []) : R r ws := h.resolve_right (fun h => hne h.1)

theorem Partly.begins {α : Type} {R : α → List Str → Prop} {r : α} {l' : Lexer} {ws : List Str}
    (h : Partly R r l' ws) : Begins R ws := h.elim (fun h => ⟨r, [], by simpa using h⟩) (fun h => h.2)

theorem gap_false_true' {rest g : Str} {cs : List (Str × Str)} (h : Gap false rest g cs) : Gap true rest g cs := by
  induction h with
  | nil => exact .nil
  | space c g cs hc _ ih => exact .space c g cs hc ih
  | comment _ _ _ _ h => simp at h

section
variable {α β : Type} {sm : Bool} {B B1 : List Str → Prop} {H : Halt → Prop} {Q : α → Lexer → Prop}
variable {Q' : β → Lexer → Prop} {l0 l : Lexer} {ts : List Tok}

theorem FailC.toR {l' : Lexer} {e : Err} (h : FailC sm B l e l') : FailR sm l e l' :=
  ⟨h.toFail, h.cut.imp (fun ⟨ts, l2, h1, h2, _⟩ => ⟨ts, l2, h1, h2⟩) id⟩

theorem Sat.toR {r : Res Lexer Err α} (h : Sat H Q (FailC sm B l) r) : Sat H Q (FailR sm l) r :=
  h.mono (fun _ _ h => h) (fun _ _ h => h.toR)

/-- At the end of the input no token can be taken. -/
theorem _root_.Verif.Took.ended {l' : Lexer} (h : Took l ts l') (hl : l.scanner.inp = []) :
    l'.scanner.inp = [] ∧ ts = [] := by
  have := h.length
  rw [hl] at this
  simp only [List.length_nil, Nat.le_zero_eq, Nat.add_eq_zero_iff, List.length_eq_zero_iff] at this
  exact this

theorem Before.trans {p : Position} (ht : Took l0 ts l) (h : Before B1 l p)
    (hB : ∀ ws, (l.scanner.inp = [] → ws = []) → B1 ws → B (words ts ++ ws)) : Before B l0 p := by
  obtain ⟨us, l2, g, r, cs, h1, h2, h3, h4, h5⟩ := h
  exact ⟨ts ++ us, l2, g, r, cs, ht.trans h1, by
    rw [words_append]; exact hB _ (fun h => by rw [(h1.ended h).2]; rfl) h2, h3, h4, h5⟩

theorem Before.taken {p : Position} (h : Before B l p) :
    Before (fun ws => B ws ∧ ∃ ts l2, words ts = ws ∧ Took l ts l2) l p := by
  obtain ⟨us, l2, g, r, cs, h1, h2, h3⟩ := h
  exact ⟨us, l2, g, r, cs, h1, ⟨h2, us, l2, rfl, h1⟩, h3⟩

theorem before_next (ht : Took l0 ts l) (m : Mode) (hB : B (words ts)) :
    Before B l0 (nextSt m l).pos.p := by
  obtain ⟨g, cs, raw, rest, h1, h2, _, h3, _⟩ := lex_lexeme m l.scanner.inp
  refine ⟨ts, l, g, raw ++ rest, cs, ht, hB, h1, ?_, ?_⟩
  · revert h2
    cases m.comment with
    | false => exact id
    | true => exact gap_false_true'
  · rw [← h3]
    rfl

theorem before_here (ht : Took l0 ts l) (hB : B (words ts)) :
    Before B l0 l.scanner.pos.p := ⟨ts, l, [], l.scanner.inp, [], ht, hB, rfl, .nil, rfl⟩

theorem ErrsAt.trans {e : Err} (ht : Took l0 ts l) (h : ErrsAt sm B1 l e)
    (hB : ∀ ws, (l.scanner.inp = [] → ws = []) → B1 ws → B (words ts ++ ws)) : ErrsAt sm B l0 e := by
  induction h with
  | single p s f hp => exact .single p s f (hp.trans ht hB)
  | pair a b _ _ iha ihb => exact .pair a b iha ihb
  | first a b hs _ iha => exact .first a b hs iha

theorem ErrsAt.taken {e : Err} (h : ErrsAt sm B l e) :
    ErrsAt sm (fun ws => B ws ∧ ∃ ts l2, words ts = ws ∧ Took l ts l2) l e := by
  induction h with
  | single p s f hp => exact .single p s f hp.taken
  | pair a b _ _ iha ihb => exact .pair a b iha ihb
  | first a b hs _ iha => exact .first a b hs iha

theorem FailC.trans {l' : Lexer} {e : Err} (ht : Took l0 ts l) (h : FailC sm B1 l e l')
    (hB : ∀ ws, (l.scanner.inp = [] → ws = []) → B1 ws → B (words ts ++ ws)) : FailC sm B l0 e l' :=
  ⟨h.toFail.trans ht, h.cut.imp (fun ⟨us, l2, h1, h2, h3⟩ =>
    ⟨ts ++ us, l2, h1, ht.trans h2, by
      rw [words_append]; exact hB _ (fun h => by rw [(h2.ended h).2]; rfl) h3⟩) id, h.errs.trans ht hB, h.here.trans ht hB⟩

/-- The dropped tokens were taken. -/
theorem FailC.taken {l' : Lexer} {e : Err} (h : FailC sm B l e l') :
    FailC sm (fun ws => B ws ∧ ∃ ts l2, words ts = ws ∧ Took l ts l2) l e l' :=
  ⟨h.toFail, h.cut.imp (fun ⟨ts, l2, h1, h2, h3⟩ => ⟨ts, l2, h1, h2, h3, ts, l2, rfl, h2⟩) id,
    h.errs.taken, h.here.taken⟩

theorem Sat.taken {r : Res Lexer Err α} (h : Sat H Q (FailC sm B l) r) :
    Sat H Q (FailC sm (fun ws => B ws ∧ ∃ ts l2, words ts = ws ∧ Took l ts l2) l) r :=
  h.mono (fun _ _ h => h) (fun _ _ h => h.taken)

theorem failC_next (ht : Took l0 ts l) {m : Mode} (hm : m.comment = false) (s : String) (f : Found)
    (hB : B (words ts)) : FailC sm B l0 (.single (nextSt m l).pos.p s f) (nextSt m l) :=
  ⟨((failR_next (sm := sm) ht.good hm s f).trans ht).toFail,
    .inl ⟨ts, _, unNext_nextSt m l, by simpa using ht.trans (took_putBack ht.good m), hB⟩,
    .single _ _ _ (before_next ht m hB), before_next ht m hB⟩

/-- Run a part after having consumed some tokens. -/
theorem Sat.cut {m : P α} {f : α → P β} (ht : Took l0 ts l) (h : Sat H Q (FailC sm B1 l) (m l))
    (hB : ∀ ws, (l.scanner.inp = [] → ws = []) → B1 ws → B (words ts ++ ws)) (hf : ∀ a l', Q a l' → Sat H Q' (FailC sm B l0) (f a l')) :
    Sat H Q' (FailC sm B l0) ((m >>= f) l) :=
  Sat.bind' h (fun _ _ he => he.trans ht hB) hf

/-- The last part. -/
theorem Sat.tailCut {m : P α} (ht : Took l0 ts l) (h : Sat H Q (FailC sm B1 l) (m l))
    (hB : ∀ ws, (l.scanner.inp = [] → ws = []) → B1 ws → B (words ts ++ ws)) : Sat H Q (FailC sm B l0) (m l) :=
  h.mono (fun _ _ h => h) (fun _ _ he => he.trans ht hB)

theorem unexpected_cut {m : Mode} (hm : m.comment = false) (ht : Took l0 ts l) {s : String} (hB : B (words ts)) :
    Sat H Q (FailC sm B l0) ((Parser.unexpected s : P α) (nextSt m l)) :=
  failC_next ht hm _ _ hB

theorem lexUnexpected_cut {m : Mode} (hm : m.comment = false) (ht : Took l0 ts l) {s : String} (hB : B (words ts)) :
    Sat H Q (FailC sm B l0) ((Lexer.unexpected s : P α) (nextSt m l)) :=
  failC_next ht hm _ _ hB

/-- Reading a token of a required kind. -/
theorem expect_cut {nx : P Unit} {m : Mode} (hn : IsNext nx m) (hm : m.comment = false) {t : Token}
    {s : String} {f : Unit → P α} (h1 : t ≠ .eof) (h2 : t ≠ .illegal) (ht : Took l0 ts l) (hB : B (words ts))
    (h : ∀ x l', Got m t l x l' → Took l0 (ts ++ [x]) l' → Sat H Q (FailC sm B l0) (f () l')) :
    Sat H Q (FailC sm B l0) ((Parser.expect nx t s >>= f) l) := by
  show Sat H Q _ (M.bind (Parser.expect nx t s) f l)
  unfold M.bind
  have hr : Parser.expect nx t s l = if (nextSt m l).token = t then .ok () (nextSt m l) else
      (Parser.unexpected s : P Unit) (nextSt m l) := by
    unfold Parser.expect
    refine (bind_ok (hn.run ht.good)).trans ?_
    refine (bind_ok (run_tok _)).trans ?_
    by_cases h : (nextSt m l).token = t <;> simp [h] <;> rfl
  rw [hr]
  by_cases hk : (nextSt m l).token = t
  · simp only [hk, if_true]
    exact h _ _ (got_next hm hk h1 h2) (ht.trans (next_took ht.good hm (by rw [hk]; exact h1)))
  · simp only [hk, if_false]
    exact failC_next ht hm _ _ hB

theorem orUnexpected_cut {m : P α} {s : String} (h : Sat H Q (FailC sm B l) (m l)) :
    Sat H Q (FailC sm B l) (Parser.orUnexpected m s l) := by
  unfold Parser.orUnexpected
  refine Sat.bind (Q := fun a l' => match a with | .ok a => Q a l' | .error e => FailC sm B l e l')
    (Sat.attempt h (fun _ _ h => h) (fun _ _ h => h)) ?_
  intro a l' h'
  cases a with
  | ok a => exact h'
  | error e => exact ⟨⟨h'.took, .single _ _ _ h'.tpos, h'.tpos⟩, h'.cut, .single _ _ _ h'.here, h'.here⟩

end

/-- Tokens with given spellings. -/
theorem written_some {ws : List Str} (h : ws ≠ []) : ∃ ts info, Written ts info ws := by
  cases ws with
  | nil => exact absurd rfl h
  | cons w ws =>
    refine ⟨(w :: ws).map (⟨·, {}⟩), ⟨{}, {}⟩, by simp [words, Function.comp_def], ⟨_, _, rfl, rfl⟩, ?_⟩
    refine ⟨((w :: ws).map (fun w => (⟨w, {}⟩ : Tok))).dropLast, ((w :: ws).map (fun w => (⟨w, {}⟩ : Tok))).getLast (by simp),
      (List.dropLast_concat_getLast _).symm, by rw [List.getLast_map]⟩

theorem word_a : Word c!"a" := .mk _ _ (by simp [WordStart, letters]) (by simp)

end Verif
