import Verif.Proofs.ParseProto
import Verif.Proofs.Putback

/-!
# Where the cursor is after an error

`Run P Q E f`: from a state with `P`, `f` returns in a state with `Q` or with an error in a state with `E`
(halts are not looked at).  The states: `AtEnd t`, the remaining text is an end of `t`; `JustRead t`, moreover the
last token was read from an end of `t`; `Known t`, the last token was read from an end of `t` and perhaps put back;
`Lost t`, the state is `Known t` or it is `Dead`.
-/

set_option backward.isDefEq.respectTransparency false
set_option backward.dsimp.instances true

namespace Verif
open Spec Scanner Lexer

structure AtEnd (t : Str) (l : Lexer) : Prop where
  good : Good l
  suffix : l.scanner.inp <:+ t

structure JustRead (t : Str) (l : Lexer) : Prop where
  good : Good l
  read : ∃ u m, u <:+ t ∧ l.scanner.raw = (lex m u).raw ∧ l.scanner.inp = lexRest m u

structure Known (t : Str) (l : Lexer) : Prop where
  good : Good l
  read : ∃ u m, u <:+ t ∧ l.scanner.raw = (lex m u).raw ∧ (l.scanner.inp = lexRest m u ∨ l.scanner.inp = u)

structure Lost (t : Str) (l : Lexer) : Prop where
  good : Good l
  state : Known t l ∨ Dead l.scanner.raw l.scanner.inp

theorem JustRead.known {t : Str} {l : Lexer} (h : JustRead t l) : Known t l := by
  obtain ⟨g, u, m, h1, h2, h3⟩ := h
  exact ⟨g, u, m, h1, h2, .inl h3⟩

theorem Known.atEnd {t : Str} {l : Lexer} (h : Known t l) : AtEnd t l := by
  obtain ⟨g, u, m, h1, h2, h3 | h3⟩ := h
  · exact ⟨g, by rw [h3]; exact (lexRest_suffix _ _).trans h1⟩
  · exact ⟨g, by rw [h3]; exact h1⟩

theorem JustRead.atEnd {t : Str} {l : Lexer} (h : JustRead t l) : AtEnd t l := h.known.atEnd

theorem Known.lost {t : Str} {l : Lexer} (h : Known t l) : Lost t l := ⟨h.good, .inl h⟩

structure Run {α : Type} (P Q E : Lexer → Prop) (f : Verif.P α) : Prop where
  sat : ∀ l, P l → Sat (fun _ => True) (fun _ l' => Q l') (fun _ l' => E l') (f l)

/-- Error states that include `Known t`. -/
class Catch (t : Str) (E : Lexer → Prop) : Prop where
  of : ∀ l, Known t l → E l

instance (t : Str) : Catch t (Known t) := ⟨fun _ h => h⟩
instance (t : Str) : Catch t (Lost t) := ⟨fun _ h => h.lost⟩

section
variable {α β : Type} {P Q S E : Lexer → Prop} {t : Str}

theorem Run.bind {m : Verif.P α} {f : α → Verif.P β} (h : Run P Q E m) (hf : ∀ a, Run Q S E (f a)) :
    Run P S E (m >>= f) :=
  ⟨fun l hl => Sat.bind (h.sat l hl) (fun a l' hq => (hf a).sat l' hq)⟩

theorem Run.attempt {E' : Lexer → Prop} {m : Verif.P α} {f : Except Err α → Verif.P β} (h : Run P Q E' m)
    (hf : ∀ a, Run Q S E (f (.ok a))) (he : ∀ e, Run E' S E (f (.error e))) :
    Run P S E (M.attempt m >>= f) := ⟨fun l hl =>
  Sat.bind (Q := fun r l' => match r with | .ok _ => Q l' | .error _ => E' l')
    (Sat.attempt (h.sat l hl) (fun _ _ h => h) (fun _ _ h => h))
    (fun r l' hr => by cases r with | ok a => exact (hf a).sat l' hr | error e => exact (he e).sat l' hr)⟩

theorem Run.ite {p : Prop} [Decidable p] {a b : Verif.P α} (h1 : Run P Q E a) (h2 : Run P Q E b) :
    Run P Q E (if p then a else b) := by
  split
  · exact h1
  · exact h2

theorem Run.pre {P' : Lexer → Prop} {m : Verif.P α} (hp : ∀ l, P' l → P l) (h : Run P Q E m) : Run P' Q E m :=
  ⟨fun l hl => h.sat l (hp l hl)⟩

theorem Run.post {Q' : Lexer → Prop} {m : Verif.P α} (hq : ∀ l, Q l → Q' l) (h : Run P Q E m) : Run P Q' E m :=
  ⟨fun l hl => (h.sat l hl).mono (fun _ _ => hq _) (fun _ _ h => h)⟩

theorem Run.ofK {m : Verif.P α} (h : Run (AtEnd t) Q E m) : Run (Known t) Q E m := h.pre fun _ h => h.atEnd
theorem Run.ofR {m : Verif.P α} (h : Run (AtEnd t) Q E m) : Run (JustRead t) Q E m := h.pre fun _ h => h.atEnd
theorem Run.ofRK {m : Verif.P α} (h : Run (Known t) Q E m) : Run (JustRead t) Q E m := h.pre fun _ h => h.known
theorem Run.toK {m : Verif.P α} (h : Run P (JustRead t) E m) : Run P (Known t) E m := h.post fun _ h => h.known
theorem Run.toW {m : Verif.P α} (h : Run P (Known t) E m) : Run P (AtEnd t) E m := h.post fun _ h => h.atEnd
theorem Run.toW' {m : Verif.P α} (h : Run P (JustRead t) E m) : Run P (AtEnd t) E m := h.post fun _ h => h.atEnd

theorem trk_pure (a : α) (h : ∀ l, P l → Q l) : Run P Q E (pure a : Verif.P α) := ⟨fun l hl => h l hl⟩
theorem trk_stop (h : Halt) : Run P Q E (M.stop h : Verif.P α) := ⟨fun _ _ => trivial⟩
theorem trk_throw [hc : Catch t E] (e : Err) : Run (Known t) Q E (M.throw e : Verif.P α) := ⟨fun l hl => hc.of l hl⟩
theorem trk_unexpected [hc : Catch t E] (s : String) : Run (Known t) Q E (Parser.unexpected s : Verif.P α) :=
  ⟨fun l hl => hc.of l hl⟩
theorem trk_lexUnexpected [hc : Catch t E] (s : String) : Run (Known t) Q E (Lexer.unexpected s : Verif.P α) :=
  ⟨fun l hl => hc.of l hl⟩
theorem trk_tok : Run P P E tok := ⟨fun _ h => h⟩
theorem trk_txt : Run P P E txt := ⟨fun _ h => h⟩
theorem trk_position : Run P P E position := ⟨fun _ h => h⟩
theorem trk_bound : Run P P E bound := ⟨fun _ h => h⟩
theorem trk_lexEOF : Run P P E Lexer.isEOF := ⟨fun _ h => h⟩

theorem justRead_next {l : Lexer} (h : AtEnd t l) (m : Mode) : JustRead t (nextSt m l) :=
  ⟨good_next h.good m, l.scanner.inp, m, h.suffix, by simp only [nextSt, after_raw], nextSt_inp m l⟩

theorem trk_nextWith (m : Mode) : Run (AtEnd t) (JustRead t) E (nextWith m) := by
  refine ⟨fun l hl => ?_⟩
  rw [Verif.run_nextWith hl.good]
  exact justRead_next hl m

theorem trk_next : Run (AtEnd t) (JustRead t) E next := by
  refine ⟨fun l hl => ?_⟩
  rw [Verif.run_next hl.good]
  exact justRead_next hl {}

theorem trk_nextKeywordOrStrLit : Run (AtEnd t) (JustRead t) E nextKeywordOrStrLit := trk_nextWith _
theorem trk_nextKeyword : Run (AtEnd t) (JustRead t) E nextKeyword := trk_nextWith _
theorem trk_nextStrLit : Run (AtEnd t) (JustRead t) E nextStrLit := trk_nextWith _
theorem trk_nextLit : Run (AtEnd t) (JustRead t) E nextLit := trk_nextWith _
theorem trk_nextNumberLit : Run (AtEnd t) (JustRead t) E nextNumberLit := trk_nextWith _
theorem trk_nextComment : Run (AtEnd t) (JustRead t) E nextComment := trk_nextWith _

theorem unNext_known {l : Lexer} (h : JustRead t l) : ∃ l', unNext l = .ok () l' ∧ Known t l' := by
  obtain ⟨g, u, m, h1, h2, h3⟩ := h
  obtain ⟨l', h4, h5, h6⟩ := unNext_good g
  refine ⟨l', h4, h5, u, m, h1, ?_, .inr ?_⟩
  · have : l'.scanner.raw = l.scanner.raw := by
      have := (unScan_inp l.scanner).2.1
      simp only [unNext, Res.ok.injEq] at h4
      rw [← h4.2]
      exact this
    rw [this, h2]
  · rw [h6, h2, h3]
    exact (drop_raw m u).symm

theorem trk_unNext : Run (JustRead t) (Known t) E unNext := by
  refine ⟨fun l hl => ?_⟩
  obtain ⟨l', h1, h2⟩ := unNext_known hl
  rw [h1]
  exact h2

end

theorem Run.attemptW {α β : Type} {Q S E : Lexer → Prop} {t : Str} {m : Verif.P α} {f : Except Err α → Verif.P β}
    (h : Run (AtEnd t) Q (Known t) m) (hf : ∀ a, Run Q S E (f (.ok a))) (he : ∀ e, Run (Known t) S E (f (.error e))) :
    Run (AtEnd t) S E (M.attempt m >>= f) := Run.attempt h hf he

theorem Run.attemptK {α β : Type} {Q S E : Lexer → Prop} {t : Str} {m : Verif.P α} {f : Except Err α → Verif.P β}
    (h : Run (AtEnd t) Q (Known t) m) (hf : ∀ a, Run Q S E (f (.ok a))) (he : ∀ e, Run (Known t) S E (f (.error e))) :
    Run (Known t) S E (M.attempt m >>= f) := Run.ofK (Run.attempt h hf he)

syntax "runlem" : tactic
macro_rules | `(tactic| runlem) => `(tactic| exact trk_tok)
macro_rules | `(tactic| runlem) => `(tactic| exact trk_txt)
macro_rules | `(tactic| runlem) => `(tactic| exact trk_position)
macro_rules | `(tactic| runlem) => `(tactic| exact trk_bound)
macro_rules | `(tactic| runlem) => `(tactic| exact trk_lexEOF)
macro_rules | `(tactic| runlem) => `(tactic| exact trk_next)
macro_rules | `(tactic| runlem) => `(tactic| exact trk_nextKeywordOrStrLit)
macro_rules | `(tactic| runlem) => `(tactic| exact trk_nextKeyword)
macro_rules | `(tactic| runlem) => `(tactic| exact trk_nextStrLit)
macro_rules | `(tactic| runlem) => `(tactic| exact trk_nextLit)
macro_rules | `(tactic| runlem) => `(tactic| exact trk_nextNumberLit)
macro_rules | `(tactic| runlem) => `(tactic| exact trk_nextComment)
macro_rules | `(tactic| runlem) => `(tactic| exact trk_unNext)
macro_rules | `(tactic| runlem) => `(tactic| exact trk_stop _)
macro_rules | `(tactic| runlem) => `(tactic| exact trk_throw _)
macro_rules | `(tactic| runlem) => `(tactic| exact trk_unexpected _)
macro_rules | `(tactic| runlem) => `(tactic| exact trk_lexUnexpected _)
macro_rules | `(tactic| runlem) => `(tactic| (apply_assumption; done))

/-- One step, after a weakening of the precondition. -/
macro "runstep" : tactic => `(tactic| with_reducible first
  | runlem
  | (apply Run.ofRK; runlem)
  | (apply Run.ofR; runlem)
  | (apply Run.ofK; runlem))

/-- The last step. -/
macro "runlast" : tactic => `(tactic| with_reducible first
  | exact trk_pure _ (fun _ h => h)
  | exact trk_pure _ (fun _ h => JustRead.known h)
  | exact trk_pure _ (fun _ h => Known.atEnd h)
  | exact trk_pure _ (fun _ h => JustRead.atEnd h)
  | runstep
  | (apply Run.toK; runstep)
  | (apply Run.toW; runstep)
  | (apply Run.toW'; runstep))

macro "run" : tactic => `(tactic| repeat' first
  | (with_reducible refine Run.attemptW (by runstep) (fun _ => ?_) (fun _ => ?_))
  | (with_reducible refine Run.attemptK (by runstep) (fun _ => ?_) (fun _ => ?_))
  | (with_reducible refine Run.bind (by runstep) (fun _ => ?_))
  | with_reducible apply Run.ite
  | runlast
  | split
  | dsimp only)

end Verif

namespace Verif.Lexer
open Spec Scanner

variable {E : Lexer → Prop} {t : Str}

theorem trk_peek : Run (AtEnd t) (Known t) E peek := by unfold peek; run
macro_rules | `(tactic| runlem) => `(tactic| exact Lexer.trk_peek)

theorem trk_consumeToken (k : Token) : Run (AtEnd t) (Known t) E (consumeToken k) := by unfold consumeToken; run
macro_rules | `(tactic| runlem) => `(tactic| exact Lexer.trk_consumeToken _)

theorem trk_nextN2 : Run (AtEnd t) (JustRead t) E (nextN 2) := by unfold nextN nextN nextN; run
macro_rules | `(tactic| runlem) => `(tactic| exact Lexer.trk_nextN2)

theorem trk_peekN2 : Run (AtEnd t) (AtEnd t) E (peekN 2) := by
  refine ⟨fun l hl => ?_⟩
  obtain ⟨l', hp, hn, _⟩ := peekN2_run hl.good
  rw [hp]
  exact (⟨hn.good, by rw [hn.inp]; exact hl.suffix⟩ : AtEnd t l')
macro_rules | `(tactic| runlem) => `(tactic| exact Lexer.trk_peekN2)

theorem trk_readEmpty : Run (AtEnd t) (JustRead t) (Known t) readEmptyStatement := by unfold readEmptyStatement; run
macro_rules | `(tactic| runlem) => `(tactic| exact Lexer.trk_readEmpty)

variable [Catch t E]

theorem trk_fullIdentLoop (n : Nat) (w : Str) : Run (JustRead t) (Known t) E (readFullIdentLoop n w) := by
  induction n generalizing w with
  | zero => exact trk_stop _
  | succ n ih => unfold readFullIdentLoop; run
macro_rules | `(tactic| runlem) => `(tactic| exact Lexer.trk_fullIdentLoop _ _)

theorem trk_readFullIdent : Run (AtEnd t) (Known t) E readFullIdent := by unfold readFullIdent; run
macro_rules | `(tactic| runlem) => `(tactic| exact Lexer.trk_readFullIdent)

theorem trk_messageTypeLoop (n : Nat) (w : Str) : Run (JustRead t) (Known t) E (readMessageTypeLoop n w) := by
  induction n generalizing w with
  | zero => exact trk_stop _
  | succ n ih => unfold readMessageTypeLoop; run
macro_rules | `(tactic| runlem) => `(tactic| exact Lexer.trk_messageTypeLoop _ _)

theorem trk_leadingDot : Run (JustRead t) (Known t) E readLeadingDot := by unfold readLeadingDot; run
macro_rules | `(tactic| runlem) => `(tactic| exact Lexer.trk_leadingDot)

theorem trk_messageType : Run (AtEnd t) (Known t) E readMessageType := by unfold readMessageType; run
macro_rules | `(tactic| runlem) => `(tactic| exact Lexer.trk_messageType)

theorem trk_mergeLoop (q : Char) (n : Nat) (w : Str) : Run (JustRead t) (JustRead t) E (mergeLoop q n w) := by
  induction n generalizing w with
  | zero => exact trk_stop _
  | succ n ih => unfold mergeLoop; run
macro_rules | `(tactic| runlem) => `(tactic| exact Lexer.trk_mergeLoop _ _ _)

theorem trk_merge : Run (JustRead t) (Known t) E mergeMultilineStrLit := by unfold mergeMultilineStrLit; run
macro_rules | `(tactic| runlem) => `(tactic| exact Lexer.trk_merge)

theorem trk_constant (b : Bool) : Run (AtEnd t) (Known t) E (readConstant b) := by unfold readConstant; run
macro_rules | `(tactic| runlem) => `(tactic| exact Lexer.trk_constant _)

end Verif.Lexer
