import Verif.Model.Machine
import Verif.Spec.Reader

set_option backward.isDefEq.respectTransparency false
set_option backward.dsimp.instances true

/-!
# The machine on two readers

Two readers that give the same runes are exchanged in a running machine (`Machine.swap`).  `Par m m'`: the runs of `m` on
the one and of `m'` on the other end in the same way, with the same result, in states that differ in their readers only,
and these are still related – unless the first run has come to a state of its reader from which on nothing is claimed
(`Linked.Gone`), which it does not leave.  There is no condition on the text, on the fuel or on the path that the parser
takes.
-/

namespace Verif

open Spec

variable {ρ ρ' : Type}

/-- How two readers are related: related states give the same rune and step to related states, unless the first reader
steps to where nothing is claimed any more. -/
class Linked (ρ ρ' : Type) [Source ρ] [Source ρ'] where
  Link : ρ → ρ' → Prop
  Gone : ρ → Prop
  step : ∀ s s', Link s s' → Gone ((Source.rd : RuneReader ρ).readRune s).2 ∨
    ((Source.rd.readRune s).1.getD eof = (Source.rd.readRune s').1.getD eof ∧
      Link (Source.rd.readRune s).2 (Source.rd.readRune s').2)
  gone : ∀ s : ρ, Gone s → Gone (Source.rd.readRune s).2

/-- The same scanner on another reader. -/
def Concrete.swap (c : Concrete ρ) (r : ρ') : Concrete ρ' :=
  { reader := r, left := c.left, buf := c.buf, raw := c.raw, p := c.p, columns := c.columns, mode := c.mode,
    comments := c.comments }

/-- The same lexer on another reader. -/
def Machine.swap (k : Machine ρ) (r : ρ') : Machine ρ' :=
  { token := k.token, text := k.text, rawText := k.rawText, pos := k.pos, log := k.log, scanner := k.scanner.swap r }

/-! ## The scanner -/

section
variable [Source ρ] [Source ρ'] [Linked ρ ρ']

theorem pop_gone (c : Concrete ρ) (h : Linked.Gone ρ' c.reader) :
    Linked.Gone ρ' (Concrete.pop Source.rd c).2.reader := by
  unfold Concrete.pop
  cases c.buf.getLast? with
  | some ch => exact h
  | none =>
    have h1 := Linked.gone c.reader h
    revert h1
    simp only
    obtain ⟨x, s⟩ := (Source.rd : RuneReader ρ).readRune c.reader
    intro h1
    cases x <;> exact h1

theorem read_reader (c : Concrete ρ) :
    (Concrete.read Source.rd c).2.reader = (Concrete.pop Source.rd c).2.reader := by
  unfold Concrete.read
  simp only
  split <;> rfl

theorem peek_reader (c : Concrete ρ) :
    (Concrete.peek Source.rd c).2.reader = (Concrete.pop Source.rd c).2.reader := by
  rw [← read_reader]
  unfold Concrete.peek
  simp only
  split <;> rfl

theorem pop_swap (c : Concrete ρ) {r : ρ'} (h : Linked.Link c.reader r) :
    Linked.Gone ρ' (Concrete.pop Source.rd c).2.reader ∨
    ∃ r', Concrete.pop Source.rd (c.swap r) = ((Concrete.pop Source.rd c).1, (Concrete.pop Source.rd c).2.swap r') ∧
      Linked.Link (Concrete.pop Source.rd c).2.reader r' := by
  obtain ⟨reader, left, buf, raw, p, columns, mode, comments⟩ := c
  unfold Concrete.pop Concrete.swap
  simp only
  cases buf.getLast? with
  | some ch => exact .inr ⟨r, rfl, h⟩
  | none =>
    have h1 := Linked.step reader r h
    revert h1
    simp only
    obtain ⟨x, s⟩ := (Source.rd : RuneReader ρ).readRune reader
    obtain ⟨y, s'⟩ := (Source.rd : RuneReader ρ').readRune r
    rintro (h1 | ⟨h1, h2⟩)
    · left; cases x <;> exact h1
    · right
      refine ⟨s', ?_, ?_⟩
      · cases x <;> cases y <;> simp_all
      · cases x <;> exact h2

theorem read_swap (c : Concrete ρ) {r : ρ'} (h : Linked.Link c.reader r) :
    Linked.Gone ρ' (Concrete.read Source.rd c).2.reader ∨
    ∃ r', Concrete.read Source.rd (c.swap r) = ((Concrete.read Source.rd c).1, (Concrete.read Source.rd c).2.swap r') ∧
      Linked.Link (Concrete.read Source.rd c).2.reader r' := by
  rcases pop_swap c h with h' | ⟨r', e, h'⟩
  · left; rw [read_reader]; exact h'
  right
  unfold Concrete.read
  rw [e]
  revert h'
  obtain ⟨ch, c'⟩ := Concrete.pop Source.rd c
  intro h'
  simp only
  split
  · exact ⟨r', rfl, h'⟩
  · exact ⟨r', rfl, h'⟩

theorem peek_swap (c : Concrete ρ) {r : ρ'} (h : Linked.Link c.reader r) :
    Linked.Gone ρ' (Concrete.peek Source.rd c).2.reader ∨
    ∃ r', Concrete.peek Source.rd (c.swap r) = ((Concrete.peek Source.rd c).1, (Concrete.peek Source.rd c).2.swap r') ∧
      Linked.Link (Concrete.peek Source.rd c).2.reader r' := by
  rcases read_swap c h with h' | ⟨r', e, h'⟩
  · left; rw [peek_reader, ← read_reader]; exact h'
  right
  unfold Concrete.peek
  rw [e]
  revert h'
  obtain ⟨ch, c'⟩ := Concrete.read Source.rd c
  intro h'
  simp only
  split
  · exact ⟨r', rfl, h'⟩
  · exact ⟨r', rfl, h'⟩

theorem unread_fold_swap (t : Str) (r : ρ') : ∀ c : Concrete ρ,
    t.foldl (fun c ch => Concrete.unread ch c) (c.swap r) = (t.foldl (fun c ch => Concrete.unread ch c) c).swap r ∧
      (t.foldl (fun c ch => Concrete.unread ch c) c).reader = c.reader := by
  induction t with
  | nil => intro c; exact ⟨rfl, rfl⟩
  | cons ch t ih => intro c; exact ih (Concrete.unread ch c)

theorem unScan_reader (c : Concrete ρ) : c.unScan.reader = c.reader := by
  unfold Concrete.unScan
  generalize c.raw.reverse = t
  induction t generalizing c with
  | nil => rfl
  | cons ch t ih => exact ih (Concrete.unread ch c)

/-- Nothing is claimed of the outcome. -/
def GoneScan (ρ' : Type) [Source ρ'] [Linked ρ ρ'] {α : Type} : Res (Concrete ρ) Err α → Prop
  | .ok _ c => Linked.Gone ρ' c.reader
  | .err _ c => Linked.Gone ρ' c.reader
  | .halt _ => ∃ s : ρ, Linked.Gone ρ' s

/-- The outcomes of two runs of a scanner are the same. -/
def ParScan {α : Type} : Res (Concrete ρ) Err α → Res (Concrete ρ') Err α → Prop
  | .ok a c, .ok b c' => b = a ∧ ∃ r, c' = c.swap r ∧ Linked.Link c.reader r
  | .err e c, .err e' c' => e' = e ∧ ∃ r, c' = c.swap r ∧ Linked.Link c.reader r
  | .halt h, .halt h' => h' = h
  | _, _ => False

theorem run_gone {α : Type} (p : Prog α) (q : Position) (c : Concrete ρ) (h : Linked.Gone ρ' c.reader) :
    GoneScan ρ' (Concrete.run Source.rd p q c) := by
  induction p generalizing q c with
  | ret a => exact h
  | throw e => exact h
  | stop _ => exact ⟨_, h⟩
  | read k ih =>
    simp only [Concrete.run]
    exact ih _ _ _ (by rw [read_reader]; exact pop_gone c h)
  | peek k ih =>
    simp only [Concrete.run]
    exact ih _ _ _ (by rw [peek_reader]; exact pop_gone c h)
  | bound k ih => exact ih _ _ _ h
  | mode k ih => exact ih _ _ _ h
  | mkErr ch e k ih => exact ih _ _ _ h
  | mark k ih => exact ih _ _ h
  | record lit k ih => exact ih q { c with comments := c.comments ++ [(lit, q)] } h

theorem run_swap {α : Type} (p : Prog α) (q : Position) (c : Concrete ρ) {r : ρ'} (h : Linked.Link c.reader r) :
    GoneScan ρ' (Concrete.run Source.rd p q c) ∨
      ParScan (Concrete.run Source.rd p q c) (Concrete.run Source.rd p q (c.swap r)) := by
  induction p generalizing q c r with
  | ret a => exact .inr ⟨rfl, r, rfl, h⟩
  | throw e => exact .inr ⟨rfl, r, rfl, h⟩
  | stop h => exact .inr rfl
  | read k ih =>
    rcases read_swap c h with h' | ⟨r', e, h'⟩
    · left; simp only [Concrete.run]; exact run_gone _ _ _ h'
    simp only [Concrete.run, e]
    exact ih _ _ _ h'
  | peek k ih =>
    rcases peek_swap c h with h' | ⟨r', e, h'⟩
    · left; simp only [Concrete.run]; exact run_gone _ _ _ h'
    simp only [Concrete.run, e]
    exact ih _ _ _ h'
  | bound k ih => exact ih _ _ _ h
  | mode k ih => exact ih _ _ _ h
  | mkErr ch e k ih => exact ih _ _ _ h
  | mark k ih => exact ih _ _ h
  | record lit k ih => exact ih q { c with comments := c.comments ++ [(lit, q)] } h

end

/-! ## Programs on the machine -/

variable [Source ρ] [Source ρ'] [Linked ρ ρ']

/-- Nothing is claimed of the outcome. -/
def GoneRes (ρ' : Type) [Source ρ'] [Linked ρ ρ'] {α : Type} : Res (Machine ρ) Err α → Prop
  | .ok _ k => Linked.Gone ρ' k.scanner.reader
  | .err _ k => Linked.Gone ρ' k.scanner.reader
  | .halt _ => ∃ s : ρ, Linked.Gone ρ' s

/-- The outcomes are the same. -/
def ParRes {α : Type} : Res (Machine ρ) Err α → Res (Machine ρ') Err α → Prop
  | .ok a k, .ok b k' => b = a ∧ ∃ r, k' = k.swap r ∧ Linked.Link k.scanner.reader r
  | .err e k, .err e' k' => e' = e ∧ ∃ r, k' = k.swap r ∧ Linked.Link k.scanner.reader r
  | .halt h, .halt h' => h' = h
  | _, _ => False

/-- The two programs do the same on readers that are related. -/
def Par {α : Type} (m : MP ρ α) (m' : MP ρ' α) : Prop :=
  ∀ k : Machine ρ, (Linked.Gone ρ' k.scanner.reader → GoneRes ρ' (m k)) ∧
    ∀ r : ρ', Linked.Link k.scanner.reader r → GoneRes ρ' (m k) ∨ ParRes (m k) (m' (k.swap r))

section
variable {α β γ δ : Type}

theorem Par.bind {m : MP ρ α} {m' : MP ρ' α} {F : α → MP ρ γ} {F' : α → MP ρ' γ} (h : Par m m')
    (hf : ∀ a, Par (F a) (F' a)) : Par (m >>= F) (m' >>= F') := by
  intro k
  have gone : GoneRes ρ' (m k) → GoneRes ρ' ((m >>= F) k) := by
    show GoneRes ρ' (m k) → GoneRes ρ' (M.bind m F k)
    unfold M.bind
    cases m k with
    | ok a k1 => exact fun h => (hf a k1).1 h
    | err e k1 => exact id
    | halt h => exact id
  refine ⟨fun hg => gone ((h k).1 hg), fun r hr => ?_⟩
  rcases (h k).2 r hr with hg | this
  · exact .inl (gone hg)
  show GoneRes ρ' (M.bind m F k) ∨ ParRes (M.bind m F k) (M.bind m' F' (k.swap r))
  unfold M.bind
  revert this
  cases m k with
  | ok a k1 =>
    cases m' (k.swap r) with
    | ok b k2 => rintro ⟨rfl, r', rfl, h'⟩; exact (hf _ _).2 _ h'
    | err e k2 => exact False.elim
    | halt h => exact False.elim
  | err e k1 =>
    cases m' (k.swap r) with
    | ok b k2 => exact False.elim
    | err e k2 => exact .inr
    | halt h => exact False.elim
  | halt h =>
    cases m' (k.swap r) with
    | ok b k2 => exact False.elim
    | err e k2 => exact False.elim
    | halt h => exact .inr

theorem Par.bind2 {α₁ α₂ : Type} {m : MP ρ (α₁ × α₂)} {m' : MP ρ' (α₁ × α₂)} {F : α₁ × α₂ → MP ρ γ}
    {F' : α₁ × α₂ → MP ρ' γ} (h : Par m m') (hf : ∀ a b, Par (F (a, b)) (F' (a, b))) :
    Par (m >>= F) (m' >>= F') := h.bind fun ⟨a, b⟩ => hf a b

theorem Par.bind3 {α₁ α₂ α₃ : Type} {m : MP ρ (α₁ × α₂ × α₃)} {m' : MP ρ' (α₁ × α₂ × α₃)}
    {F : α₁ × α₂ × α₃ → MP ρ γ} {F' : α₁ × α₂ × α₃ → MP ρ' γ} (h : Par m m')
    (hf : ∀ a b c, Par (F (a, b, c)) (F' (a, b, c))) :
    Par (m >>= F) (m' >>= F') := h.bind fun ⟨a, b, c⟩ => hf a b c

theorem Par.pure {a b : α} (h : b = a) :
    Par (Pure.pure a : MP ρ α) (Pure.pure b : MP ρ' α) := fun _ => ⟨id, fun r hl => .inr ⟨h, r, rfl, hl⟩⟩

theorem Par.throw {e : Err} : Par (M.throw e : MP ρ α) (M.throw e : MP ρ' α) := fun _ => ⟨id, fun r hl => .inr ⟨rfl, r, rfl, hl⟩⟩

theorem Par.fuel : Par (M.stop .fuel : MP ρ α) (M.stop .fuel : MP ρ' α) := fun _ => ⟨fun h => ⟨_, h⟩, fun _ _ => .inr rfl⟩

theorem Par.panic : Par (M.stop .panic : MP ρ α) (M.stop .panic : MP ρ' α) := fun _ => ⟨fun h => ⟨_, h⟩, fun _ _ => .inr rfl⟩

theorem Par.attempt {m : MP ρ α} {m' : MP ρ' α} (h : Par m m') : Par (M.attempt m) (M.attempt m') := by
  intro k
  have gone : GoneRes ρ' (m k) → GoneRes ρ' (M.attempt m k) := by
    unfold M.attempt
    cases m k <;> exact id
  refine ⟨fun hg => gone ((h k).1 hg), fun r hr => ?_⟩
  rcases (h k).2 r hr with hg | this
  · exact .inl (gone hg)
  right
  unfold M.attempt
  revert this
  cases m k with
  | ok a k1 =>
    cases m' (k.swap r) with
    | ok b k2 => rintro ⟨rfl, h'⟩; exact ⟨rfl, h'⟩
    | err e k2 => exact False.elim
    | halt h => exact False.elim
  | err e k1 =>
    cases m' (k.swap r) with
    | ok b k2 => exact False.elim
    | err e k2 => rintro ⟨rfl, h'⟩; exact ⟨rfl, h'⟩
    | halt h => exact False.elim
  | halt h =>
    cases m' (k.swap r) with
    | ok b k2 => exact False.elim
    | err e k2 => exact False.elim
    | halt h => exact id

theorem Par.bind_attempt {m : MP ρ α} {m' : MP ρ' α} {F : Except Err α → MP ρ γ} {F' : Except Err α → MP ρ' γ}
    (h : Par m m') (ho : ∀ a, Par (F (.ok a)) (F' (.ok a)))
    (he : ∀ e, Par (F (.error e)) (F' (.error e))) : Par (M.attempt m >>= F) (M.attempt m' >>= F') :=
  (Par.attempt h).bind fun a => match a with
    | .ok a => ho a
    | .error e => he e

theorem Par.ite {c : Prop} [Decidable c] {m n : MP ρ α} {m' n' : MP ρ' α} (h : Par m m')
    (h' : Par n n') : Par (if c then m else n) (if c then m' else n') := by
  by_cases hc : c
  · rw [if_pos hc, if_pos hc]; exact h
  · rw [if_neg hc, if_neg hc]; exact h'

end

/-! ## The lexer -/

namespace Par

open Machine

theorem par_tok : Par (ρ := ρ) (ρ' := ρ') Lex.tok Lex.tok := fun _ => ⟨id, fun r h => .inr ⟨rfl, r, rfl, h⟩⟩
theorem par_txt : Par (ρ := ρ) (ρ' := ρ') Lex.txt Lex.txt := fun _ => ⟨id, fun r h => .inr ⟨rfl, r, rfl, h⟩⟩
theorem par_position : Par (ρ := ρ) (ρ' := ρ') Lex.position Lex.position := fun _ => ⟨id, fun r h => .inr ⟨rfl, r, rfl, h⟩⟩
theorem par_bound : Par (ρ := ρ) (ρ' := ρ') Lex.bound Lex.bound := fun _ => ⟨id, fun r h => .inr ⟨rfl, r, rfl, h⟩⟩
theorem par_rawText : Par (ρ := ρ) (ρ' := ρ') Parse.rawText Parse.rawText := fun _ => ⟨id, fun r h => .inr ⟨rfl, r, rfl, h⟩⟩

theorem par_unexpected {α : Type} (e : String) :
    Par (ρ := ρ) (ρ' := ρ') (α := α) (Lex.unexpected e) (Lex.unexpected e) := fun _ => ⟨id, fun r h => .inr ⟨rfl, r, rfl, h⟩⟩

theorem par_perr {α : Type} (e : String) :
    Par (ρ := ρ) (ρ' := ρ') (α := α) (Parse.unexpected e) (Parse.unexpected e) := fun _ => ⟨id, fun r h => .inr ⟨rfl, r, rfl, h⟩⟩

theorem gone_nextCur (k : Machine ρ)
    (h : GoneScan ρ' (Concrete.run Source.rd Prog.scan k.scanner.p { k.scanner with raw := [] })) :
    GoneRes ρ' (Lex.nextCur k) := by
  unfold Lex.nextCur Concrete.scan
  revert h
  cases Concrete.run Source.rd Prog.scan k.scanner.p { k.scanner with raw := [] } <;> exact id

theorem par_nextCur : Par (ρ := ρ) (ρ' := ρ') Lex.nextCur Lex.nextCur := by
  intro k
  refine ⟨fun hg => gone_nextCur k (run_gone _ _ _ hg), fun r h => ?_⟩
  rcases run_swap Prog.scan k.scanner.p { k.scanner with raw := [] } h with hg | this
  · exact .inl (gone_nextCur k hg)
  right
  unfold Lex.nextCur Concrete.scan
  show ParRes _ (match Concrete.run Source.rd Prog.scan k.scanner.p
    (({ k.scanner with raw := [] } : Concrete ρ).swap r) with
      | .ok ((token, text, error), pos) sc => _ | .err e sc => _ | .halt h => _)
  revert this
  cases Concrete.run Source.rd Prog.scan k.scanner.p { k.scanner with raw := [] } with
  | ok a c1 =>
    cases Concrete.run Source.rd Prog.scan k.scanner.p (({ k.scanner with raw := [] } : Concrete ρ).swap r) with
    | ok b c2 => rintro ⟨rfl, r', rfl, h'⟩; exact ⟨rfl, r', rfl, h'⟩
    | err e c2 => exact False.elim
    | halt h => exact False.elim
  | err e c1 =>
    cases Concrete.run Source.rd Prog.scan k.scanner.p (({ k.scanner with raw := [] } : Concrete ρ).swap r) with
    | ok b c2 => exact False.elim
    | err e c2 => rintro ⟨rfl, r', rfl, h'⟩; exact ⟨rfl, r', rfl, h'⟩
    | halt h => exact False.elim
  | halt h =>
    cases Concrete.run Source.rd Prog.scan k.scanner.p (({ k.scanner with raw := [] } : Concrete ρ).swap r) with
    | ok b c2 => exact False.elim
    | err e c2 => exact False.elim
    | halt h => exact id

theorem gone_nextWith (m : Mode) (k : Machine ρ)
    (h : GoneRes ρ' (Lex.nextCur { k with scanner := { k.scanner with mode := m } })) :
    GoneRes ρ' (Lex.nextWith m k) := by
  unfold Lex.nextWith
  simp only
  revert h
  cases Lex.nextCur { k with scanner := { k.scanner with mode := m } } <;> exact id

theorem par_nextWith (m : Mode) : Par (ρ := ρ) (ρ' := ρ') (Lex.nextWith m) (Lex.nextWith m) := by
  intro k
  have hp := par_nextCur (ρ := ρ) (ρ' := ρ') { k with scanner := { k.scanner with mode := m } }
  refine ⟨fun hg => gone_nextWith m k (hp.1 hg), fun r h => ?_⟩
  rcases hp.2 r h with hg | this
  · exact .inl (gone_nextWith m k hg)
  right
  show ParRes (match Lex.nextCur { k with scanner := { k.scanner with mode := m } } with
      | .ok a l' => .ok a { l' with scanner := { l'.scanner with mode := k.scanner.mode } }
      | .err e l' => .err e { l' with scanner := { l'.scanner with mode := k.scanner.mode } }
      | .halt h => .halt h)
    (match Lex.nextCur (({ k with scanner := { k.scanner with mode := m } } : Machine ρ).swap r) with
      | .ok a l' => .ok a { l' with scanner := { l'.scanner with mode := k.scanner.mode } }
      | .err e l' => .err e { l' with scanner := { l'.scanner with mode := k.scanner.mode } }
      | .halt h => .halt h)
  revert this
  cases Lex.nextCur { k with scanner := { k.scanner with mode := m } } with
  | ok a k1 =>
    cases Lex.nextCur (({ k with scanner := { k.scanner with mode := m } } : Machine ρ).swap r) with
    | ok b k2 => rintro ⟨rfl, r', rfl, h'⟩; exact ⟨rfl, r', rfl, h'⟩
    | err e k2 => exact False.elim
    | halt h => exact False.elim
  | err e k1 =>
    cases Lex.nextCur (({ k with scanner := { k.scanner with mode := m } } : Machine ρ).swap r) with
    | ok b k2 => exact False.elim
    | err e k2 => rintro ⟨rfl, r', rfl, h'⟩; exact ⟨rfl, r', rfl, h'⟩
    | halt h => exact False.elim
  | halt h =>
    cases Lex.nextCur (({ k with scanner := { k.scanner with mode := m } } : Machine ρ).swap r) with
    | ok b k2 => exact False.elim
    | err e k2 => exact False.elim
    | halt h => exact id

theorem par_next : Par (ρ := ρ) (ρ' := ρ') Lex.next Lex.next := par_nextCur

theorem par_unNext : Par (ρ := ρ) (ρ' := ρ') Lex.unNext Lex.unNext := by
  intro k
  refine ⟨fun hg => ?_, fun r h => .inr ?_⟩
  · show Linked.Gone ρ' k.scanner.unScan.reader
    rw [unScan_reader]; exact hg
  · obtain ⟨e, _⟩ := unread_fold_swap k.scanner.raw.reverse r k.scanner
    have e' : (k.swap r).scanner.unScan = k.scanner.unScan.swap r := e
    refine ⟨rfl, r, ?_, ?_⟩
    · rw [e']; rfl
    · show Linked.Link k.scanner.unScan.reader r
      rw [unScan_reader]; exact h

theorem par_unNextTo (t : Str) : Par (ρ := ρ) (ρ' := ρ') (Lex.unNextTo t) (Lex.unNextTo t) :=
  Par.bind (fun _ => ⟨id, fun r h => .inr ⟨rfl, r, rfl, h⟩⟩) fun _ => par_unNext

theorem par_nextKeywordOrStrLit : Par (ρ := ρ) (ρ' := ρ') Lex.nextKeywordOrStrLit Lex.nextKeywordOrStrLit := par_nextWith _
theorem par_nextKeyword : Par (ρ := ρ) (ρ' := ρ') Lex.nextKeyword Lex.nextKeyword := par_nextWith _
theorem par_nextStrLit : Par (ρ := ρ) (ρ' := ρ') Lex.nextStrLit Lex.nextStrLit := par_nextWith _
theorem par_nextLit : Par (ρ := ρ) (ρ' := ρ') Lex.nextLit Lex.nextLit := par_nextWith _
theorem par_nextNumberLit : Par (ρ := ρ) (ρ' := ρ') Lex.nextNumberLit Lex.nextNumberLit := par_nextWith _
theorem par_nextComment : Par (ρ := ρ) (ρ' := ρ') Lex.nextComment Lex.nextComment := par_nextWith _

end Par

/-- A known pair of computations. -/
syntax "parlem" : tactic

macro_rules | `(tactic| parlem) => `(tactic| with_reducible exact Par.par_tok)
macro_rules | `(tactic| parlem) => `(tactic| with_reducible exact Par.par_txt)
macro_rules | `(tactic| parlem) => `(tactic| with_reducible exact Par.par_position)
macro_rules | `(tactic| parlem) => `(tactic| with_reducible exact Par.par_bound)
macro_rules | `(tactic| parlem) => `(tactic| with_reducible exact Par.par_next)
macro_rules | `(tactic| parlem) => `(tactic| with_reducible exact Par.par_nextWith _)
macro_rules | `(tactic| parlem) => `(tactic| with_reducible exact Par.par_unNext)
macro_rules | `(tactic| parlem) => `(tactic| with_reducible exact Par.par_unNextTo _)
macro_rules | `(tactic| parlem) => `(tactic| with_reducible exact Par.par_rawText)

macro_rules | `(tactic| parlem) => `(tactic| with_reducible exact Par.par_nextKeywordOrStrLit)
macro_rules | `(tactic| parlem) => `(tactic| with_reducible exact Par.par_nextKeyword)
macro_rules | `(tactic| parlem) => `(tactic| with_reducible exact Par.par_nextStrLit)
macro_rules | `(tactic| parlem) => `(tactic| with_reducible exact Par.par_nextLit)
macro_rules | `(tactic| parlem) => `(tactic| with_reducible exact Par.par_nextNumberLit)
macro_rules | `(tactic| parlem) => `(tactic| with_reducible exact Par.par_nextComment)

/-- Walk through the two programs. -/
macro "par" : tactic => `(tactic| repeat' first
  | with_reducible assumption
  | with_reducible exact Par.fuel
  | with_reducible exact Par.par_unexpected _
  | with_reducible exact Par.par_perr _
  | with_reducible exact Par.pure rfl
  | parlem
  | (with_reducible refine Par.ite ?_ ?_)
  | (with_reducible apply Par.bind3; parlem; intro a b c; dsimp only)
  | (with_reducible apply Par.bind2; parlem; intro a b; dsimp only)
  | (with_reducible apply Par.bind; parlem; intro a)
  | (with_reducible apply Par.bind_attempt; parlem; (intro a; dsimp only); (intro a; dsimp only))
  )

namespace Par

open Machine

theorem par_isEOF : Par (ρ := ρ) (ρ' := ρ') Lex.isEOF Lex.isEOF := by unfold Lex.isEOF; par
macro_rules | `(tactic| parlem) => `(tactic| with_reducible exact Par.par_isEOF)

theorem par_peek : Par (ρ := ρ) (ρ' := ρ') Lex.peek Lex.peek := by unfold Lex.peek; par
macro_rules | `(tactic| parlem) => `(tactic| with_reducible exact Par.par_peek)

theorem par_nextN (n : Nat) : Par (ρ := ρ) (ρ' := ρ') (Lex.nextN n) (Lex.nextN n) := by
  induction n with
  | zero => exact Par.pure rfl
  | succ n ih => unfold Lex.nextN; par

theorem par_peekNLoop (n : Nat) (ls : List Str) :
    Par (ρ := ρ) (ρ' := ρ') (Lex.peekNLoop n ls) (Lex.peekNLoop n ls) := by
  induction n generalizing ls with
  | zero => exact Par.pure rfl
  | succ n ih =>
    unfold Lex.peekNLoop
    exact par_next.bind fun _ => fun k => ih (ls ++ [k.rawText]) k

theorem par_unNextAll (ls : List Str) : Par (ρ := ρ) (ρ' := ρ') (Lex.unNextAll ls) (Lex.unNextAll ls) := by
  induction ls with
  | nil => exact Par.pure rfl
  | cons r rs ih => unfold Lex.unNextAll; par

theorem par_peekN (n : Nat) : Par (ρ := ρ) (ρ' := ρ') (Lex.peekN n) (Lex.peekN n) := by
  unfold Lex.peekN
  refine (par_peekNLoop _ _).bind fun a => ?_
  refine par_tok.bind fun a => ?_
  exact (par_unNextAll _).bind fun _ => Par.pure rfl

theorem par_consumeToken (t : Token) : Par (ρ := ρ) (ρ' := ρ') (Lex.consumeToken t) (Lex.consumeToken t) := by
  unfold Lex.consumeToken; par

theorem par_readEmptyStatement : Par (ρ := ρ) (ρ' := ρ') Lex.readEmptyStatement Lex.readEmptyStatement := by
  unfold Lex.readEmptyStatement; par

theorem par_readFullIdentLoop (n : Nat) (x : Str) :
    Par (ρ := ρ) (ρ' := ρ') (Lex.readFullIdentLoop n x) (Lex.readFullIdentLoop n x) := by
  induction n generalizing x with
  | zero => exact Par.fuel
  | succ n ih => unfold Lex.readFullIdentLoop; par; all_goals exact ih _
macro_rules | `(tactic| parlem) => `(tactic| with_reducible exact Par.par_readFullIdentLoop _ _)

theorem par_readFullIdent : Par (ρ := ρ) (ρ' := ρ') Lex.readFullIdent Lex.readFullIdent := by
  unfold Lex.readFullIdent; par

theorem par_readMessageTypeLoop (n : Nat) (x : Str) :
    Par (ρ := ρ) (ρ' := ρ') (Lex.readMessageTypeLoop n x) (Lex.readMessageTypeLoop n x) := by
  induction n generalizing x with
  | zero => exact Par.fuel
  | succ n ih => unfold Lex.readMessageTypeLoop; par; all_goals exact ih _
macro_rules | `(tactic| parlem) => `(tactic| with_reducible exact Par.par_readMessageTypeLoop _ _)

theorem par_readLeadingDot : Par (ρ := ρ) (ρ' := ρ') Lex.readLeadingDot Lex.readLeadingDot := by
  unfold Lex.readLeadingDot; par
macro_rules | `(tactic| parlem) => `(tactic| with_reducible exact Par.par_readLeadingDot)

theorem par_readMessageType : Par (ρ := ρ) (ρ' := ρ') Lex.readMessageType Lex.readMessageType := by
  unfold Lex.readMessageType; par

theorem par_mergeLoop (q : Char) (n : Nat) (x : Str) :
    Par (ρ := ρ) (ρ' := ρ') (Lex.mergeLoop q n x) (Lex.mergeLoop q n x) := by
  induction n generalizing x with
  | zero => exact Par.fuel
  | succ n ih => unfold Lex.mergeLoop; par; all_goals exact ih _
macro_rules | `(tactic| parlem) => `(tactic| with_reducible exact Par.par_mergeLoop _ _ _)

theorem par_merge : Par (ρ := ρ) (ρ' := ρ') Lex.mergeMultilineStrLit Lex.mergeMultilineStrLit := by
  unfold Lex.mergeMultilineStrLit; par
macro_rules | `(tactic| parlem) => `(tactic| with_reducible exact Par.par_merge)
macro_rules | `(tactic| parlem) => `(tactic| with_reducible exact Par.par_readFullIdent)

theorem par_readEnumType : Par (ρ := ρ) (ρ' := ρ') Lex.readEnumType Lex.readEnumType := par_readMessageType

theorem par_readConstant (b : Bool) :
    Par (ρ := ρ) (ρ' := ρ') (Lex.readConstant b) (Lex.readConstant b) := by
  unfold Lex.readConstant; par

end Par

macro_rules | `(tactic| parlem) => `(tactic| with_reducible exact Par.par_nextN _)
macro_rules | `(tactic| parlem) => `(tactic| with_reducible exact Par.par_peekN _)
macro_rules | `(tactic| parlem) => `(tactic| with_reducible exact Par.par_consumeToken _)
macro_rules | `(tactic| parlem) => `(tactic| with_reducible exact Par.par_readEmptyStatement)
macro_rules | `(tactic| parlem) => `(tactic| with_reducible exact Par.par_readMessageType)
macro_rules | `(tactic| parlem) => `(tactic| with_reducible exact Par.par_readConstant _)

end Verif
