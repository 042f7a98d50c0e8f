import Verif.Model.Machine
import Verif.Props.Buffer
import Verif.Proofs.Calm

set_option backward.isDefEq.respectTransparency false
set_option backward.dsimp.instances true

/-!
# The parser on the concrete state and on the ideal cursor

`Ref f m m'`: started in states that show the same, `m` on the ideal cursor and `m'` on the concrete state end in the
same way, in states that show the same, and `m'` returns `f a` if `m` returns `a` – unless `m` runs out of its bound.
-/

namespace Verif

open Props

variable {ρ : Type} [Source ρ]

/-- The two lexers show the same. -/
structure RLex (l : Lexer) (k : Machine ρ) : Prop where
  token : k.token = l.token
  text : k.text = l.text
  rawText : k.rawText = l.rawText
  pos : k.pos = l.pos.p
  log : k.log = l.log
  stand : Stand Source.rd l.scanner k.scanner

/-- The two outcomes are the same. -/
def RefRes {α β : Type} (f : α → β) : Res Lexer Err α → Res (Machine ρ) Err β → Prop
  | .halt .fuel, _ => True
  | .ok a l, .ok b k => b = f a ∧ RLex l k
  | .err e l, .err e' k => e' = e ∧ RLex l k
  | .halt .panic, .halt .panic => True
  | _, _ => False

def Ref {α β : Type} (f : α → β) (m : P α) (m' : MP ρ β) : Prop :=
  ∀ l (k : Machine ρ), RLex l k → RefRes f (m l) (m' k)

section
variable {α β γ δ : Type} {f : α → β} {g : γ → δ}

theorem RefRes.bind {m : P α} {m' : MP ρ β} {F : α → P γ} {F' : β → MP ρ δ} {l : Lexer} {k : Machine ρ}
    (h : RefRes f (m l) (m' k)) (hf : ∀ a l' k', m l = .ok a l' → m' k = .ok (f a) k' → RLex l' k' →
      RefRes g (F a l') (F' (f a) k')) : RefRes g ((m >>= F) l) ((m' >>= F') k) := by
  show RefRes g (M.bind m F l) (M.bind m' F' k)
  unfold M.bind
  revert h hf
  cases m l with
  | ok a l' =>
    cases m' k with
    | ok b k' =>
      intro h hf
      obtain ⟨rfl, h⟩ := h
      exact hf a l' k' rfl rfl h
    | err e k' => intro h; exact h.elim
    | halt h => intro h; exact h.elim
  | err e l' =>
    cases m' k with
    | ok b k' => intro h; exact h.elim
    | err e k' => intro h _; exact h
    | halt h => intro h; exact h.elim
  | halt h =>
    cases h with
    | fuel => intro _ _; trivial
    | panic =>
      cases m' k with
      | ok b k' => intro h; exact h.elim
      | err e k' => intro h; exact h.elim
      | halt h =>
        cases h with
        | fuel => intro h; exact h.elim
        | panic => intro _ _; trivial

theorem Ref.bind {m : P α} {m' : MP ρ β} {F : α → P γ} {F' : β → MP ρ δ} (h : Ref f m m')
    (hf : ∀ a, Ref g (F a) (F' (f a))) : Ref g (m >>= F) (m' >>= F') :=
  fun l k hl => RefRes.bind (h l k hl) fun a l' k' _ _ hl' => hf a l' k' hl'

theorem Ref.bind2 {α₁ α₂ : Type} {f : α₁ × α₂ → β} {m : P (α₁ × α₂)} {m' : MP ρ β} {F : α₁ × α₂ → P γ}
    {F' : β → MP ρ δ} (h : Ref f m m') (hf : ∀ a b, Ref g (F (a, b)) (F' (f (a, b)))) :
    Ref g (m >>= F) (m' >>= F') := h.bind fun ⟨a, b⟩ => hf a b

theorem Ref.bind3 {α₁ α₂ α₃ : Type} {f : α₁ × α₂ × α₃ → β} {m : P (α₁ × α₂ × α₃)} {m' : MP ρ β}
    {F : α₁ × α₂ × α₃ → P γ} {F' : β → MP ρ δ} (h : Ref f m m')
    (hf : ∀ a b c, Ref g (F (a, b, c)) (F' (f (a, b, c)))) :
    Ref g (m >>= F) (m' >>= F') := h.bind fun ⟨a, b, c⟩ => hf a b c

theorem Ref.pure {a : α} {b : β} (h : b = f a) :
    Ref f (Pure.pure a : P α) (Pure.pure b : MP ρ β) := fun _ _ hl => ⟨h, hl⟩

theorem Ref.throw {e : Err} : Ref f (M.throw e) (M.throw e : MP ρ β) := fun _ _ hl => ⟨rfl, hl⟩

theorem Ref.fuel {m : MP ρ β} : Ref f (M.stop .fuel) m := fun _ _ _ => trivial

theorem Ref.panic : Ref f (M.stop .panic) (M.stop .panic : MP ρ β) := fun _ _ _ => trivial

/-- The results of two calls whose errors are inspected. -/
def mapExcept (f : α → β) : Except Err α → Except Err β
  | .ok a => .ok (f a)
  | .error e => .error e

theorem RefRes.attempt {m : P α} {m' : MP ρ β} {l : Lexer} {k : Machine ρ} (h : RefRes f (m l) (m' k)) :
    RefRes (mapExcept f) (M.attempt m l) (M.attempt m' k) := by
  unfold M.attempt
  revert h
  cases m l with
  | ok a l' =>
    cases m' k with
    | ok b k' => rintro ⟨rfl, h⟩; exact ⟨rfl, h⟩
    | err e k' => intro h; exact h.elim
    | halt h => intro h; exact h.elim
  | err e l' =>
    cases m' k with
    | ok b k' => intro h; exact h.elim
    | err e k' => rintro ⟨rfl, h⟩; exact ⟨rfl, h⟩
    | halt h => intro h; exact h.elim
  | halt h =>
    cases h with
    | fuel => intro _; trivial
    | panic =>
      cases m' k with
      | ok b k' => intro h; exact h.elim
      | err e k' => intro h; exact h.elim
      | halt h =>
        cases h with
        | fuel => intro h; exact h.elim
        | panic => intro _; trivial

theorem Ref.attempt {m : P α} {m' : MP ρ β} (h : Ref f m m') :
    Ref (mapExcept f) (M.attempt m) (M.attempt m') := fun l k hl => RefRes.attempt (h l k hl)

theorem Ref.bind_attempt {m : P α} {m' : MP ρ β} {F : Except Err α → P γ} {F' : Except Err β → MP ρ δ}
    (h : Ref f m m') (ho : ∀ a, Ref g (F (.ok a)) (F' (.ok (f a))))
    (he : ∀ e, Ref g (F (.error e)) (F' (.error e))) : Ref g (M.attempt m >>= F) (M.attempt m' >>= F') :=
  (Ref.attempt h).bind fun a => match a with
    | .ok a => ho a
    | .error e => he e

theorem Ref.ite {c : Prop} [Decidable c] {m n : P α} {m' n' : MP ρ β} (h : Ref f m m')
    (h' : Ref f n n') : Ref f (if c then m else n) (if c then m' else n') := by
  by_cases hc : c
  · rw [if_pos hc, if_pos hc]; exact h
  · rw [if_neg hc, if_neg hc]; exact h'

end

/-! ## The lexer -/

namespace Lexer

open Machine

theorem ref_tok : Ref (ρ := ρ) (fun a => a) tok Lex.tok := fun _ _ h => ⟨h.token, h⟩
theorem ref_txt : Ref (ρ := ρ) (fun a => a) txt Lex.txt := fun _ _ h => ⟨h.text, h⟩
theorem ref_position : Ref (ρ := ρ) (fun a => a.p) position Lex.position := fun _ _ h => ⟨h.pos, h⟩

theorem ref_bound : Ref (ρ := ρ) (fun a => a) bound Lex.bound := by
  intro l k h
  refine ⟨?_, h⟩
  obtain ⟨t, h1, _, h3⟩ := h.stand.inp
  simp [h1, h3]

theorem ref_rawText : Ref (ρ := ρ) (fun a => a) Parser.rawText Parse.rawText := fun _ _ h => ⟨h.rawText, h⟩

theorem ref_unexpected {α β : Type} {f : α → β} (e : String) :
    Ref (ρ := ρ) f (unexpected e) (Lex.unexpected e) := fun l k h =>
  ⟨by rw [h.text, h.pos], h⟩

theorem ref_perr {α β : Type} {f : α → β} (e : String) :
    Ref (ρ := ρ) f (Parser.unexpected e) (Parse.unexpected e) := fun l k h =>
  ⟨by rw [h.text, h.pos, h.token], h⟩

theorem ref_nextCur : Ref (ρ := ρ) (fun a => a) nextCur Lex.nextCur := by
  intro l k h
  have st := h.stand
  have h := run_same Prog.scan st.p
    (s := { l.scanner with raw := [] }) (c := { k.scanner with raw := [] })
    ⟨st.inp, rfl, st.p, st.columns, st.mode, st.comments⟩
  rw [scan_is_prog] at h
  unfold nextCur Lex.nextCur Concrete.scan
  revert h
  cases Scanner.scan l.scanner with
  | ok x s' =>
    cases Concrete.run Source.rd Prog.scan k.scanner.p { k.scanner with raw := [] } with
    | ok y k' =>
      rintro ⟨h1, h2, h3⟩
      obtain ⟨⟨t, x, e⟩, p⟩ := y
      simp only at h1 h2
      injection h1 with h1 h4
      injection h4 with h4 h5
      subst h1 h4 h5 h2
      refine ⟨rfl, ⟨rfl, rfl, h3.raw.symm, rfl, ?_, h3⟩⟩
      show k.log ++ _ = l.log ++ _
      rw [‹RLex l k›.log]
    | err e k' => intro h; exact h.elim
    | halt h => intro h; exact h.elim
  | err e s' =>
    cases Concrete.run Source.rd Prog.scan k.scanner.p { k.scanner with raw := [] } with
    | ok y k' => intro h; exact h.elim
    | err e' k' =>
      rename_i h
      rintro ⟨h1, h2⟩
      exact ⟨h1.symm, ⟨h.token, h.text, h.rawText, h.pos, h.log, h2⟩⟩
    | halt h => intro h; exact h.elim
  | halt h =>
    cases Concrete.run Source.rd Prog.scan k.scanner.p { k.scanner with raw := [] } with
    | ok y k' => intro h; exact h.elim
    | err e' k' => intro h; exact h.elim
    | halt h' =>
      intro e
      obtain rfl : h = h' := e
      cases h <;> trivial

theorem rlex_mode {l : Lexer} {k : Machine ρ} (m : Mode) (h : RLex l k) :
    RLex { l with scanner := { l.scanner with mode := m } } { k with scanner := { k.scanner with mode := m } } :=
  ⟨h.token, h.text, h.rawText, h.pos, h.log,
    ⟨h.stand.inp, h.stand.raw, h.stand.p, h.stand.columns, rfl, h.stand.comments⟩⟩

theorem ref_nextWith (m : Mode) : Ref (ρ := ρ) (fun a => a) (nextWith m) (Lex.nextWith m) := by
  intro l k hl
  have := ref_nextCur _ _ (rlex_mode m hl)
  unfold nextWith Lex.nextWith
  simp only
  rw [hl.stand.mode]
  revert this
  cases nextCur { l with scanner := { l.scanner with mode := m } } with
  | ok a s' =>
    cases Lex.nextCur { k with scanner := { k.scanner with mode := m } } with
    | ok b t' => intro h; exact ⟨rfl, rlex_mode _ h.2⟩
    | err e t' => intro h; exact h.elim
    | halt h => intro h; exact h.elim
  | err e s' =>
    cases Lex.nextCur { k with scanner := { k.scanner with mode := m } } with
    | ok b t' => intro h; exact h.elim
    | err e t' => intro h; exact ⟨h.1, rlex_mode _ h.2⟩
    | halt h => intro h; exact h.elim
  | halt h =>
    cases h with
    | fuel => intro _; trivial
    | panic =>
      cases Lex.nextCur { k with scanner := { k.scanner with mode := m } } with
      | ok b t' => intro h; exact h.elim
      | err e t' => intro h; exact h.elim
      | halt h =>
        cases h with
        | fuel => intro h; exact h.elim
        | panic => intro _; trivial

theorem ref_next : Ref (ρ := ρ) (fun a => a) next Lex.next := ref_nextCur

theorem ref_unNext : Ref (ρ := ρ) (fun a => a) unNext Lex.unNext := by
  intro l k h
  have := stand_unScan h.stand
  exact ⟨rfl, ⟨rfl, h.text, h.rawText, this.p.symm, h.log, this⟩⟩

theorem ref_unNextTo (r : Str) : Ref (ρ := ρ) (fun a => a) (unNextTo r) (Lex.unNextTo r) := by
  refine Ref.bind (f := fun a => a) (fun l k h => ⟨rfl, ?_⟩) fun _ => ref_unNext
  exact ⟨h.token, h.text, h.rawText, h.pos, h.log,
    ⟨h.stand.inp, rfl, h.stand.p, h.stand.columns, h.stand.mode, h.stand.comments⟩⟩

end Lexer

/-- A known pair of computations. -/
syntax "reflem" : tactic

macro_rules | `(tactic| reflem) => `(tactic| exact Lexer.ref_tok)
macro_rules | `(tactic| reflem) => `(tactic| exact Lexer.ref_txt)
macro_rules | `(tactic| reflem) => `(tactic| exact Lexer.ref_position)
macro_rules | `(tactic| reflem) => `(tactic| exact Lexer.ref_bound)
macro_rules | `(tactic| reflem) => `(tactic| exact Lexer.ref_next)
macro_rules | `(tactic| reflem) => `(tactic| exact Lexer.ref_nextWith _)
macro_rules | `(tactic| reflem) => `(tactic| exact Lexer.ref_unNext)
macro_rules | `(tactic| reflem) => `(tactic| exact Lexer.ref_unNextTo _)
macro_rules | `(tactic| reflem) => `(tactic| exact Lexer.ref_rawText)

/-- Walk through the two programs. -/
macro "ref" : tactic => `(tactic| repeat' first
  | assumption
  | exact Ref.fuel
  | exact Lexer.ref_unexpected _
  | exact Lexer.ref_perr _
  | exact Ref.pure rfl
  | reflem
  | (refine Ref.ite ?_ ?_)
  | (apply Ref.bind3; reflem; intro a b c)
  | (apply Ref.bind2; reflem; intro a b)
  | (apply Ref.bind; reflem; intro a)
  | (apply Ref.bind_attempt; reflem; (intro a); (intro a))
  )

namespace Lexer

open Machine

theorem ref_isEOF : Ref (ρ := ρ) (fun a => a) isEOF Lex.isEOF := by unfold isEOF Lex.isEOF; ref
macro_rules | `(tactic| reflem) => `(tactic| exact Lexer.ref_isEOF)

theorem ref_peek : Ref (ρ := ρ) (fun a => a) peek Lex.peek := by unfold peek Lex.peek; ref
macro_rules | `(tactic| reflem) => `(tactic| exact Lexer.ref_peek)

theorem ref_nextN (n : Nat) : Ref (ρ := ρ) (fun a => a) (nextN n) (Lex.nextN n) := by
  induction n with
  | zero => exact Ref.pure rfl
  | succ n ih => unfold nextN Lex.nextN; ref

theorem ref_peekNLoop (n : Nat) (ls : List Str) :
    Ref (ρ := ρ) (fun a => a) (peekNLoop n ls) (Lex.peekNLoop n ls) := by
  induction n generalizing ls with
  | zero => exact Ref.pure rfl
  | succ n ih =>
    unfold peekNLoop Lex.peekNLoop
    refine ref_next.bind fun _ => ?_
    intro l k h
    show RefRes _ (peekNLoop n (ls ++ [l.rawText]) l) (Lex.peekNLoop n (ls ++ [k.rawText]) k)
    rw [h.rawText]
    exact ih _ l k h

theorem ref_unNextAll (ls : List Str) : Ref (ρ := ρ) (fun a => a) (unNextAll ls) (Lex.unNextAll ls) := by
  induction ls with
  | nil => exact Ref.pure rfl
  | cons r rs ih => unfold unNextAll Lex.unNextAll; ref

theorem ref_peekN (n : Nat) : Ref (ρ := ρ) (fun a => a) (peekN n) (Lex.peekN n) := by
  unfold peekN Lex.peekN
  refine (ref_peekNLoop _ _).bind fun a => ?_
  refine ref_tok.bind fun a => ?_
  exact (ref_unNextAll _).bind fun _ => Ref.pure rfl

theorem ref_consumeToken (t : Token) : Ref (ρ := ρ) (fun a => a) (consumeToken t) (Lex.consumeToken t) := by
  unfold consumeToken Lex.consumeToken; ref

theorem ref_readEmptyStatement : Ref (ρ := ρ) (fun a => a) readEmptyStatement Lex.readEmptyStatement := by
  unfold readEmptyStatement Lex.readEmptyStatement; ref

theorem ref_readFullIdentLoop (n : Nat) (x : Str) :
    Ref (ρ := ρ) (fun a => a) (readFullIdentLoop n x) (Lex.readFullIdentLoop n x) := by
  induction n generalizing x with
  | zero => exact Ref.fuel
  | succ n ih => unfold readFullIdentLoop Lex.readFullIdentLoop; ref; all_goals exact ih _
macro_rules | `(tactic| reflem) => `(tactic| exact Lexer.ref_readFullIdentLoop _ _)

theorem ref_readFullIdent : Ref (ρ := ρ) (fun a => (a.1, a.2.p)) readFullIdent Lex.readFullIdent := by
  unfold readFullIdent Lex.readFullIdent; ref

theorem ref_readMessageTypeLoop (n : Nat) (x : Str) :
    Ref (ρ := ρ) (fun a => a) (readMessageTypeLoop n x) (Lex.readMessageTypeLoop n x) := by
  induction n generalizing x with
  | zero => exact Ref.fuel
  | succ n ih => unfold readMessageTypeLoop Lex.readMessageTypeLoop; ref; all_goals exact ih _
macro_rules | `(tactic| reflem) => `(tactic| exact Lexer.ref_readMessageTypeLoop _ _)

theorem ref_readLeadingDot : Ref (ρ := ρ) (fun a => a) readLeadingDot Lex.readLeadingDot := by
  unfold readLeadingDot Lex.readLeadingDot; ref
macro_rules | `(tactic| reflem) => `(tactic| exact Lexer.ref_readLeadingDot)

theorem ref_readMessageType : Ref (ρ := ρ) (fun a => (a.1, a.2.p)) readMessageType Lex.readMessageType := by
  unfold readMessageType Lex.readMessageType; ref

theorem ref_mergeLoop (q : Char) (n : Nat) (x : Str) :
    Ref (ρ := ρ) (fun a => a) (mergeLoop q n x) (Lex.mergeLoop q n x) := by
  induction n generalizing x with
  | zero => exact Ref.fuel
  | succ n ih => unfold mergeLoop Lex.mergeLoop; ref; all_goals exact ih _
macro_rules | `(tactic| reflem) => `(tactic| exact Lexer.ref_mergeLoop _ _ _)

theorem ref_merge : Ref (ρ := ρ) (fun a => a) mergeMultilineStrLit Lex.mergeMultilineStrLit := by
  unfold mergeMultilineStrLit Lex.mergeMultilineStrLit; ref
macro_rules | `(tactic| reflem) => `(tactic| exact Lexer.ref_merge)
macro_rules | `(tactic| reflem) => `(tactic| exact Lexer.ref_readFullIdent)

theorem ref_readConstant (b : Bool) :
    Ref (ρ := ρ) (fun a => (a.1, a.2.p)) (readConstant b) (Lex.readConstant b) := by
  unfold readConstant Lex.readConstant; ref

end Lexer

macro_rules | `(tactic| reflem) => `(tactic| exact Lexer.ref_nextN _)
macro_rules | `(tactic| reflem) => `(tactic| exact Lexer.ref_peekN _)
macro_rules | `(tactic| reflem) => `(tactic| exact Lexer.ref_consumeToken _)
macro_rules | `(tactic| reflem) => `(tactic| exact Lexer.ref_readEmptyStatement)
macro_rules | `(tactic| reflem) => `(tactic| exact Lexer.ref_readMessageType)
macro_rules | `(tactic| reflem) => `(tactic| exact Lexer.ref_readConstant _)

end Verif
