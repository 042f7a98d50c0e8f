import Verif.Model.Api
import Verif.Spec.Alike

set_option backward.isDefEq.respectTransparency false
set_option backward.dsimp.instances true

/-!
# Two runs side by side

`Sim`: two computations, started in related states, end in the same way with related results in related
states – unless the first one runs out of its bound.
-/

namespace Verif

open Spec

/-- The outcomes of two runs are related. -/
def SimRes {σ ε α β : Type} (L : σ → σ → Prop) (E : ε → ε → Prop) (R : α → β → Prop) :
    Res σ ε α → Res σ ε β → Prop
  | .halt .fuel, _ => True
  | .ok a s, .ok b t => R a b ∧ L s t
  | .err e s, .err e' t => E e e' ∧ L s t
  | .halt .panic, .halt .panic => True
  | _, _ => False

def Sim {σ ε α β : Type} (L : σ → σ → Prop) (E : ε → ε → Prop) (R : α → β → Prop)
    (m : M σ ε α) (m' : M σ ε β) : Prop := ∀ s t, L s t → SimRes L E R (m s) (m' t)

inductive RExcept {ε α β : Type} (E : ε → ε → Prop) (R : α → β → Prop) : Except ε α → Except ε β → Prop
  | ok {a : α} {b : β} : R a b → RExcept E R (.ok a) (.ok b)
  | error {e e' : ε} : E e e' → RExcept E R (.error e) (.error e')

inductive RPair {α β α' β' : Type} (R : α → α' → Prop) (Q : β → β' → Prop) : α × β → α' × β' → Prop
  | mk {a : α} {a' : α'} {b : β} {b' : β'} : R a a' → Q b b' → RPair R Q (a, b) (a', b')

section
variable {σ ε α β γ δ : Type} {L : σ → σ → Prop} {E : ε → ε → Prop} {R : α → β → Prop} {Q : γ → δ → Prop}

theorem Sim.bind {m : M σ ε α} {m' : M σ ε β} {f : α → M σ ε γ} {f' : β → M σ ε δ} (h : Sim L E R m m')
    (hf : ∀ a b, R a b → Sim L E Q (f a) (f' b)) : Sim L E Q (m >>= f) (m' >>= f') := by
  intro s t hst
  show SimRes L E Q (M.bind m f s) (M.bind m' f' t)
  have := h s t hst
  unfold M.bind
  revert this
  cases m s with
  | ok a s' =>
    cases m' t with
    | ok b t' => intro h; exact hf a b h.1 s' t' h.2
    | err e t' => intro h; exact h.elim
    | halt h => intro h; exact h.elim
  | err e s' =>
    cases m' t with
    | ok b t' => intro h; exact h.elim
    | err e t' => intro h; exact h
    | halt h => intro h; exact h.elim
  | halt h =>
    cases h with
    | fuel => intro _; trivial
    | panic =>
      cases m' t with
      | ok b t' => intro h; exact h.elim
      | err e t' => intro h; exact h.elim
      | halt h =>
        cases h with
        | fuel => intro h; exact h.elim
        | panic => intro _; trivial

theorem Sim.pure {a : α} {b : β} (h : R a b) :
    Sim L E R (Pure.pure a : M σ ε α) (Pure.pure b : M σ ε β) := fun _ _ hst => ⟨h, hst⟩

theorem Sim.throw {e e' : ε} (h : E e e') : Sim L E R (M.throw e) (M.throw e') :=
  fun _ _ hst => ⟨h, hst⟩

theorem Sim.fuel {m : M σ ε β} : Sim L E R (M.stop .fuel) m := fun _ _ _ => trivial

theorem Sim.panic : Sim L E R (M.stop .panic) (M.stop .panic) := fun _ _ _ => trivial

theorem Sim.attempt {m : M σ ε α} {m' : M σ ε β} (h : Sim L E R m m') :
    Sim L E (RExcept E R) (M.attempt m) (M.attempt m') := by
  intro s t hst
  have := h s t hst
  unfold M.attempt
  revert this
  cases m s with
  | ok a s' =>
    cases m' t with
    | ok b t' => intro h; exact ⟨.ok h.1, h.2⟩
    | err e t' => intro h; exact h.elim
    | halt h => intro h; exact h.elim
  | err e s' =>
    cases m' t with
    | ok b t' => intro h; exact h.elim
    | err e t' => intro h; exact ⟨.error h.1, h.2⟩
    | halt h => intro h; exact h.elim
  | halt h =>
    cases h with
    | fuel => intro _; trivial
    | panic =>
      cases m' t with
      | ok b t' => intro h; exact h.elim
      | err e t' => intro h; exact h.elim
      | halt h =>
        cases h with
        | fuel => intro h; exact h.elim
        | panic => intro _; trivial

theorem Sim.ite {c : Prop} [Decidable c] {m n : M σ ε α} {m' n' : M σ ε β} (h : Sim L E R m m')
    (h' : Sim L E R n n') : Sim L E R (if c then m else n) (if c then m' else n') := by
  by_cases hc : c
  · rw [if_pos hc, if_pos hc]; exact h
  · rw [if_neg hc, if_neg hc]; exact h'

theorem Sim.ite_iff {c c' : Prop} [Decidable c] [Decidable c'] {m n : M σ ε α} {m' n' : M σ ε β}
    (hc : c ↔ c') (h : Sim L E R m m') (h' : Sim L E R n n') :
    Sim L E R (if c then m else n) (if c' then m' else n') := by
  by_cases hx : c
  · rw [if_pos hx, if_pos (hc.mp hx)]; exact h
  · rw [if_neg hx, if_neg (fun h => hx (hc.mpr h))]; exact h'

theorem Sim.mono {R' : α → β → Prop} {m : M σ ε α} {m' : M σ ε β} (h : Sim L E R m m')
    (hr : ∀ a b, R a b → R' a b) : Sim L E R' m m' := by
  intro s t hst
  have := h s t hst
  revert this
  cases m s with
  | ok a s' =>
    cases m' t with
    | ok b t' => intro h; exact ⟨hr _ _ h.1, h.2⟩
    | err e t' => intro h; exact h.elim
    | halt h => intro h; exact h.elim
  | err e s' =>
    cases m' t with
    | ok b t' => intro h; exact h.elim
    | err e t' => intro h; exact h
    | halt h => intro h; exact h.elim
  | halt h =>
    cases h with
    | fuel => intro _; trivial
    | panic =>
      cases m' t with
      | ok b t' => intro h; exact h.elim
      | err e t' => intro h; exact h.elim
      | halt h =>
        cases h with
        | fuel => intro h; exact h.elim
        | panic => intro _; trivial

end

/-- A relation between the positions of two runs that survives advancing and reverting. -/
structure Link where
  pos : SPos → SPos → Prop
  /-- difference of the offsets -/
  shift : Int
  /-- difference of the line numbers -/
  lines : Int
  /-- whether the recorded comments are related -/
  keep : Prop
  advance {p q : SPos} (c : Char) : pos p q → pos (p.advance c) (q.advance c)
  revert {p q : SPos} (c : Char) : pos p q → pos (p.revert c) (q.revert c)
  line {p q : SPos} : pos p q → q.p.line = p.p.line + lines
  offset {p q : SPos} : pos p q → q.p.offset = p.p.offset + shift

variable (ρ : Link)

/-- Related positions without their stacks. -/
def Link.at (p q : Position) : Prop := ∃ P Q, ρ.pos P Q ∧ P.p = p ∧ Q.p = q

theorem Link.at_of {ρ : Link} {P Q : SPos} (h : ρ.pos P Q) : ρ.at P.p Q.p := ⟨P, Q, h, rfl, rfl⟩

structure RText (a b : Text) : Prop where
  literal : a.literal = b.literal
  pos : ρ.pos a.pos b.pos

structure RScanner (s t : Scanner) : Prop where
  inp : s.inp = t.inp
  raw : s.raw = t.raw
  pos : ρ.pos s.pos t.pos
  mode : s.mode = t.mode
  comments : ρ.keep → AlikeList (RText ρ) s.getScannedComments t.getScannedComments

/-- Everything but the error latch, which the parser never reads. -/
structure RLexer (l l' : Lexer) : Prop where
  token : l.token = l'.token
  text : l.text = l'.text
  rawText : l.rawText = l'.rawText
  pos : ρ.pos l.pos l'.pos
  scanner : RScanner ρ l.scanner l'.scanner

abbrev SimS {α : Type} (R : α → α → Prop) (m m' : S α) : Prop :=
  Sim (RScanner ρ) (AlikeErr ρ.at) R m m'

abbrev SimP {α : Type} (R : α → α → Prop) (m m' : P α) : Prop :=
  Sim (RLexer ρ) (AlikeErr ρ.at) R m m'

/-! ## The scanner -/

namespace Scanner

variable {ρ : Link}

theorem sim_read : SimS ρ Eq read read := by
  intro s t h
  obtain ⟨inp, raw, pos, mode, comments⟩ := s
  obtain ⟨inp', raw', pos', mode', comments'⟩ := t
  obtain ⟨h1, h2, h3, h4, h5⟩ := h
  simp only at h1 h2 h3 h4
  subst h1 h2 h4
  unfold read
  cases inp with
  | nil => exact ⟨rfl, ⟨rfl, rfl, h3, rfl, h5⟩⟩
  | cons c r =>
    by_cases hc : c = eof
    · simp only [if_pos hc]; exact ⟨rfl, ⟨rfl, rfl, h3, rfl, h5⟩⟩
    · simp only [if_neg hc]; exact ⟨rfl, ⟨rfl, rfl, ρ.advance c h3, rfl, h5⟩⟩

theorem rel_unread {s t : Scanner} (ch : Char) (h : RScanner ρ s t) :
    RScanner ρ (unread ch s) (unread ch t) :=
  ⟨congrArg (ch :: ·) h.inp, h.raw, ρ.revert ch h.pos, h.mode, h.comments⟩

theorem rel_unScan {s t : Scanner} (h : RScanner ρ s t) : RScanner ρ s.unScan t.unScan := by
  unfold unScan
  rw [h.raw]
  generalize t.raw.reverse = r
  induction r generalizing s t with
  | nil => exact h
  | cons c r ih => exact ih (rel_unread c h)

theorem sim_modify {f g : Scanner → Scanner} (h : ∀ s t, RScanner ρ s t → RScanner ρ (f s) (g t)) :
    SimS ρ Eq (M.modify f) (M.modify g) := fun _ _ hst => ⟨rfl, h _ _ hst⟩

theorem sim_bound : SimS ρ Eq bound bound := by
  intro s t h
  exact ⟨by rw [h.inp], h⟩

theorem sim_unexpected {α : Type} {R : α → α → Prop} (c : Char) (e : String) :
    SimS ρ R (unexpected c e) (unexpected c e) := fun _ _ h => ⟨.rune e c (Link.at_of h.pos), h⟩

theorem sim_peek : SimS ρ Eq peek peek := by
  refine sim_read.bind fun a b h => ?_
  subst h
  refine Sim.ite (Sim.bind (sim_modify fun s t h => ?_) fun _ _ _ => Sim.pure rfl) (Sim.pure rfl)
  exact rel_unread a ⟨h.inp, by simp [h.raw], h.pos, h.mode, h.comments⟩

theorem sim_isEOF : SimS ρ Eq isEOF isEOF := sim_peek.bind fun a b h => by subst h; exact Sim.pure rfl

/-- Walk through two copies of a program that differ in nothing but the states. -/
macro "sims" : tactic => `(tactic| repeat' first
  | assumption
  | exact sim_read | exact sim_peek | exact sim_bound | exact sim_isEOF
  | exact Sim.pure rfl | exact Sim.fuel | exact sim_unexpected _ _
  | (refine Sim.ite ?_ ?_)
  | (refine Sim.bind (R := Eq) ?_ (fun a b h => ?_); rotate_left; subst h))

theorem sim_identLoop (n : Nat) (t : Str) : SimS ρ Eq (scanIdentLoop n t) (scanIdentLoop n t) := by
  induction n generalizing t with
  | zero => exact Sim.fuel
  | succ n ih =>
    unfold scanIdentLoop
    sims
    all_goals exact ih _

theorem sim_ident : SimS ρ Eq scanIdent scanIdent := by
  unfold scanIdent
  sims
  all_goals exact sim_identLoop _ _

theorem sim_lineComment (n : Nat) (c : Char) (t : Str) :
    SimS ρ Eq (lineCommentLoop n c t) (lineCommentLoop n c t) := by
  induction n generalizing c t with
  | zero => exact Sim.fuel
  | succ n ih =>
    unfold lineCommentLoop
    sims
    all_goals exact ih _ _

theorem sim_blockComment (n : Nat) (c : Char) (t : Str) :
    SimS ρ Eq (blockCommentLoop n c t) (blockCommentLoop n c t) := by
  induction n generalizing c t with
  | zero => exact Sim.fuel
  | succ n ih =>
    unfold blockCommentLoop
    sims
    all_goals exact ih _ _

theorem sim_comment : SimS ρ Eq scanComment scanComment := by
  unfold scanComment
  sims
  · exact sim_lineComment _ _ _
  · exact sim_blockComment _ _ _

theorem sim_hex (n : Nat) (t : Str) : SimS ρ Eq (hexDigitsLoop n t) (hexDigitsLoop n t) := by
  induction n generalizing t with
  | zero => exact Sim.pure rfl
  | succ n ih =>
    unfold hexDigitsLoop
    sims
    all_goals exact ih _

theorem sim_octal (n : Nat) (t : Str) : SimS ρ Eq (octalDigitsLoop n t) (octalDigitsLoop n t) := by
  induction n generalizing t with
  | zero => exact Sim.pure rfl
  | succ n ih =>
    unfold octalDigitsLoop
    sims
    all_goals exact ih _

theorem sim_escape : SimS ρ Eq tryScanEscape tryScanEscape := by
  unfold tryScanEscape
  refine sim_read.bind fun a b h => ?_
  subst h
  refine sim_peek.bind fun a b h => ?_
  subst h
  refine Sim.ite (sim_read.bind fun a b h => ?_) (Sim.ite (sim_octal _ _) ?_)
  · subst h; exact sim_hex _ _
  · sims

theorem sim_charValue : SimS ρ Eq scanCharValue scanCharValue := by
  have h := sim_escape (ρ := ρ)
  unfold scanCharValue
  sims

theorem sim_strLoop (q : Char) (n : Nat) (c : Char) (t : Str) :
    SimS ρ Eq (strLitLoop q n c t) (strLitLoop q n c t) := by
  induction n generalizing c t with
  | zero => exact Sim.fuel
  | succ n ih =>
    have h := sim_charValue (ρ := ρ)
    unfold strLitLoop
    sims
    all_goals exact ih _ _

theorem sim_str : SimS ρ Eq scanStrLit scanStrLit := by
  unfold scanStrLit
  sims
  all_goals exact sim_strLoop _ _ _ _

theorem sim_digits (cls : Char → Bool) (n : Nat) (t : Str) :
    SimS ρ Eq (digitsLoop cls n t) (digitsLoop cls n t) := by
  induction n generalizing t with
  | zero => exact Sim.fuel
  | succ n ih =>
    unfold digitsLoop
    sims
    all_goals exact ih _

theorem sim_decimals : SimS ρ Eq scanDecimals scanDecimals := by
  unfold scanDecimals
  sims
  all_goals exact sim_digits _ _ _

theorem sim_exponent : SimS ρ Eq scanExponent scanExponent := by
  have h := sim_decimals (ρ := ρ)
  unfold scanExponent
  sims

theorem sim_noOmit : SimS ρ Eq scanFractionPartNoOmit scanFractionPartNoOmit := by
  have h := sim_decimals (ρ := ρ)
  have h' := sim_exponent (ρ := ρ)
  unfold scanFractionPartNoOmit
  sims

theorem sim_fractionExp (t : Str) : SimS ρ Eq (scanFractionExp t) (scanFractionExp t) := by
  have h' := sim_exponent (ρ := ρ)
  unfold scanFractionExp
  sims

theorem sim_fraction : SimS ρ Eq scanFractionPart scanFractionPart := by
  have h := sim_decimals (ρ := ρ)
  unfold scanFractionPart
  sims
  all_goals exact sim_fractionExp _

theorem sim_number : SimS ρ Eq scanNumberLit scanNumberLit := by
  have h1 := sim_noOmit (ρ := ρ)
  have h2 := sim_fraction (ρ := ρ)
  have h3 := sim_exponent (ρ := ρ)
  unfold scanNumberLit
  sims
  all_goals exact sim_digits _ _ _

/-! Recorded comments -/

theorem findComment_rel {us vs : List Text} {c d : Text} (h : AlikeList (RText ρ) us vs) (hc : RText ρ c d) :
    findComment us c = findComment vs d := by
  unfold findComment
  induction h with
  | nil => rfl
  | cons h _ ih =>
    simp only [List.any_cons, ih]
    congr 1
    have h1 := ρ.offset h.pos
    have h2 := ρ.offset hc.pos
    rw [h.literal, hc.literal, h1, h2]
    rw [decide_eq_decide]
    constructor
    · rintro ⟨a, b⟩; exact ⟨by rw [a], b⟩
    · rintro ⟨a, b⟩; exact ⟨by omega, b⟩

theorem AlikeList.snoc {α : Type} {R : α → α → Prop} {as bs : List α} {a b : α} (h : AlikeList R as bs)
    (hab : R a b) : AlikeList R (as ++ [a]) (bs ++ [b]) := by
  induction h with
  | nil => exact .cons hab .nil
  | cons h _ ih => exact .cons h ih

theorem getScannedComments_snoc (s : Scanner) (c : Text) :
    getScannedComments { s with comments := s.comments ++ [c] } =
      if !findComment s.getScannedComments c then s.getScannedComments ++ [c]
      else s.getScannedComments := by
  unfold getScannedComments
  rw [List.foldl_append]
  rfl

theorem rel_record {s t : Scanner} {c d : Text} (h : RScanner ρ s t) (hc : RText ρ c d) :
    RScanner ρ { s with comments := s.comments ++ [c] } { t with comments := t.comments ++ [d] } := by
  refine ⟨h.inp, h.raw, h.pos, h.mode, fun hk => ?_⟩
  rw [getScannedComments_snoc, getScannedComments_snoc, findComment_rel (h.comments hk) hc]
  by_cases hf : (!findComment t.getScannedComments d) = true
  · rw [if_pos hf, if_pos hf]; exact AlikeList.snoc (h.comments hk) hc
  · rw [if_neg hf, if_neg hf]; exact h.comments hk

/-- Two results of a scan; the parser does not look at the error. -/
structure RScanned (ρ : Link) (x y : Scanned) : Prop where
  token : x.token = y.token
  text : x.text = y.text
  pos : ρ.pos x.pos y.pos

theorem sim_get {α : Type} {R : α → α → Prop} {f g : Scanner → S α}
    (h : ∀ s t, RScanner ρ s t → SimS ρ R (f s) (g t)) : SimS ρ R (M.get >>= f) (M.get >>= g) :=
  fun s t hst => h s t hst s t hst

theorem sim_scanLoop (n : Nat) : SimS ρ (RScanned ρ) (scanLoop n) (scanLoop n) := by
  induction n with
  | zero => exact Sim.fuel
  | succ n ih =>
    unfold scanLoop
    refine sim_peek.bind fun ch _ e => ?_
    subst e
    refine sim_get fun s t hst => ?_
    simp only
    rw [hst.mode]
    have ret : ∀ k x e e', SimS ρ (RScanned ρ)
        (return { token := k, text := x, pos := s.pos, error := e })
        (return { token := k, text := x, pos := t.pos, error := e' }) :=
      fun k x e e' => Sim.pure ⟨rfl, rfl, hst.pos⟩
    refine Sim.ite (sim_read.bind fun _ _ _ => ih) ?_
    refine sim_isEOF.bind fun b _ e => ?_
    subst e
    refine Sim.ite (ret _ _ _ _) ?_
    refine Sim.ite (sim_ident.bind fun w _ e => ?_) ?_
    · subst e
      exact Sim.ite (ret _ _ _ _) (Sim.ite (ret _ _ _ _) (Sim.ite (ret _ _ _ _) (ret _ _ _ _)))
    refine Sim.ite ((Sim.attempt sim_comment).bind fun x y h => ?_) ?_
    · cases h with
      | error _ => exact ret _ _ _ _
      | @ok a b h =>
        cases h
        refine Sim.bind (sim_modify fun s' t' h => rel_record h ⟨rfl, hst.pos⟩) fun _ _ _ => ?_
        exact Sim.ite (ret _ _ _ _) ih
    refine Sim.ite ((Sim.attempt sim_str).bind fun x y h => ?_) ?_
    · cases h with
      | error _ => exact ret _ _ _ _
      | @ok a b h => cases h; exact ret _ _ _ _
    refine Sim.ite ((Sim.attempt sim_number).bind fun x y h => ?_) ?_
    · cases h with
      | error _ => exact ret _ _ _ _
      | @ok a b h => cases h; exact ret _ _ _ _
    · refine sim_read.bind fun c _ e => ?_
      subst e
      exact ret _ _ _ _

theorem sim_scan : SimS ρ (RScanned ρ) scan scan := by
  unfold scan
  refine Sim.bind (sim_modify fun s t h => ⟨h.inp, rfl, h.pos, h.mode, h.comments⟩) fun _ _ _ => ?_
  refine sim_bound.bind fun n _ e => ?_
  subst e
  exact sim_scanLoop n

end Scanner

/-! ## The lexer -/

namespace Lexer

variable {ρ : Link}

theorem sim_tok : SimP ρ Eq tok tok := fun _ _ h => ⟨h.token, h⟩
theorem sim_txt : SimP ρ Eq txt txt := fun _ _ h => ⟨h.text, h⟩
theorem sim_position : SimP ρ ρ.pos position position := fun _ _ h => ⟨h.pos, h⟩
theorem sim_bound : SimP ρ Eq bound bound := fun _ _ h => ⟨by rw [h.scanner.inp], h⟩

theorem sim_nextCur : SimP ρ Eq nextCur nextCur := by
  intro l l' hl
  have := Scanner.sim_scan _ _ hl.scanner
  unfold nextCur
  revert this
  cases Scanner.scan l.scanner with
  | ok a s' =>
    cases Scanner.scan l'.scanner with
    | ok b t' => intro h; exact ⟨rfl, ⟨h.1.token, h.1.text, h.2.raw, h.1.pos, h.2⟩⟩
    | err e t' => intro h; exact h.elim
    | halt h => intro h; exact h.elim
  | err e s' =>
    cases Scanner.scan l'.scanner with
    | ok b t' => intro h; exact h.elim
    | err e t' => intro h; exact ⟨h.1, ⟨hl.token, hl.text, hl.rawText, hl.pos, h.2⟩⟩
    | halt h => intro h; exact h.elim
  | halt h =>
    cases h with
    | fuel => intro _; trivial
    | panic =>
      cases Scanner.scan l'.scanner with
      | ok b t' => intro h; exact h.elim
      | err e t' => intro h; exact h.elim
      | halt h =>
        cases h with
        | fuel => intro h; exact h.elim
        | panic => intro _; trivial

theorem rel_mode {l l' : Lexer} (m : Mode) (h : RLexer ρ l l') :
    RLexer ρ { l with scanner := { l.scanner with mode := m } }
      { l' with scanner := { l'.scanner with mode := m } } :=
  ⟨h.token, h.text, h.rawText, h.pos, ⟨h.scanner.inp, h.scanner.raw, h.scanner.pos, rfl, h.scanner.comments⟩⟩

theorem sim_nextWith (m : Mode) : SimP ρ Eq (nextWith m) (nextWith m) := by
  intro l l' hl
  have := sim_nextCur _ _ (rel_mode m hl)
  unfold nextWith
  simp only
  rw [hl.scanner.mode]
  revert this
  cases nextCur { l with scanner := { l.scanner with mode := m } } with
  | ok a s' =>
    cases nextCur { l' with scanner := { l'.scanner with mode := m } } with
    | ok b t' => intro h; exact ⟨rfl, rel_mode _ h.2⟩
    | err e t' => intro h; exact h.elim
    | halt h => intro h; exact h.elim
  | err e s' =>
    cases nextCur { l' with scanner := { l'.scanner with mode := m } } with
    | ok b t' => intro h; exact h.elim
    | err e t' => intro h; exact ⟨h.1, rel_mode _ h.2⟩
    | halt h => intro h; exact h.elim
  | halt h =>
    cases h with
    | fuel => intro _; trivial
    | panic =>
      cases nextCur { l' with scanner := { l'.scanner with mode := m } } with
      | ok b t' => intro h; exact h.elim
      | err e t' => intro h; exact h.elim
      | halt h =>
        cases h with
        | fuel => intro h; exact h.elim
        | panic => intro _; trivial

theorem sim_next : SimP ρ Eq next next := sim_nextCur

theorem sim_unNext : SimP ρ Eq unNext unNext := by
  intro l l' h
  have := Scanner.rel_unScan h.scanner
  exact ⟨rfl, ⟨rfl, h.text, h.rawText, this.pos, this⟩⟩

theorem sim_unNextTo (r : Str) : SimP ρ Eq (unNextTo r) (unNextTo r) := by
  refine Sim.bind (R := Eq) (fun l l' h => ⟨rfl, ?_⟩) fun _ _ _ => sim_unNext
  exact ⟨h.token, h.text, h.rawText, h.pos, ⟨h.scanner.inp, rfl, h.scanner.pos, h.scanner.mode, h.scanner.comments⟩⟩

theorem sim_unexpected {α : Type} {R : α → α → Prop} (e : String) :
    SimP ρ R (unexpected e) (unexpected e) := fun l l' h =>
  ⟨by rw [h.text]; exact .text e _ (Link.at_of h.pos), h⟩

theorem sim_rawText : SimP ρ Eq Parser.rawText Parser.rawText := fun _ _ h => ⟨h.rawText, h⟩

theorem sim_perr {α : Type} {R : α → α → Prop} (e : String) :
    SimP ρ R (Parser.unexpected e) (Parser.unexpected e) := fun l l' h =>
  ⟨by rw [h.text, h.token]; exact .token e _ _ (Link.at_of h.pos), h⟩

end Lexer

/-- A known pair of related computations. -/
syntax "simlem" : tactic

macro_rules | `(tactic| simlem) => `(tactic| exact Lexer.sim_tok)
macro_rules | `(tactic| simlem) => `(tactic| exact Lexer.sim_txt)
macro_rules | `(tactic| simlem) => `(tactic| exact Lexer.sim_position)
macro_rules | `(tactic| simlem) => `(tactic| exact Lexer.sim_bound)
macro_rules | `(tactic| simlem) => `(tactic| exact Lexer.sim_next)
macro_rules | `(tactic| simlem) => `(tactic| exact Lexer.sim_nextWith _)
macro_rules | `(tactic| simlem) => `(tactic| exact Lexer.sim_unNext)
macro_rules | `(tactic| simlem) => `(tactic| exact Lexer.sim_unNextTo _)
macro_rules | `(tactic| simlem) => `(tactic| exact Lexer.sim_rawText)

/-- The relation between two results that were put together. -/
macro "alike" : tactic => `(tactic| repeat' first
  | rfl
  | assumption
  | exact AlikeList.nil
  | exact AlikeOpt.none
  | (refine Link.at_of ?_; assumption)
  | constructor)

/-- Walk through two copies of a program. -/
macro "sim" : tactic => `(tactic| repeat' first
  | assumption
  | exact Sim.fuel
  | exact Lexer.sim_unexpected _
  | exact Lexer.sim_perr _
  | exact Sim.pure rfl
  | (refine Sim.pure ?_; alike; done)
  | simlem
  | (refine Sim.ite ?_ ?_)
  | (apply Sim.bind; simlem; intro a b h; first | subst h | (cases (show RPair _ _ _ _ from h); subst_vars) | (cases (show AlikeOpt _ _ _ from h)) | skip)
  | (apply Sim.bind; exact Sim.attempt (by simlem); intro a b h; cases (show RExcept _ _ _ _ from h); subst_vars)
  )

namespace Lexer
variable {ρ : Link}

theorem sim_isEOF : SimP ρ Eq isEOF isEOF := by unfold isEOF; sim
macro_rules | `(tactic| simlem) => `(tactic| exact Lexer.sim_isEOF)

theorem sim_peek : SimP ρ Eq peek peek := by unfold peek; sim
macro_rules | `(tactic| simlem) => `(tactic| exact Lexer.sim_peek)

theorem sim_nextN (n : Nat) : SimP ρ Eq (nextN n) (nextN n) := by
  induction n with
  | zero => exact Sim.pure rfl
  | succ n ih => unfold nextN; sim

theorem sim_peekNLoop (n : Nat) (ls : List Str) : SimP ρ Eq (peekNLoop n ls) (peekNLoop n ls) := by
  induction n generalizing ls with
  | zero => exact Sim.pure rfl
  | succ n ih =>
    unfold peekNLoop
    refine sim_next.bind fun _ _ _ => ?_
    intro l l' h
    show SimRes _ _ _ (peekNLoop n (ls ++ [l.rawText]) l) (peekNLoop n (ls ++ [l'.rawText]) l')
    rw [h.rawText]
    exact ih _ l l' h

theorem sim_unNextAll (ls : List Str) : SimP ρ Eq (unNextAll ls) (unNextAll ls) := by
  induction ls with
  | nil => exact Sim.pure rfl
  | cons r rs ih => unfold unNextAll; sim

theorem sim_peekN (n : Nat) : SimP ρ Eq (peekN n) (peekN n) := by
  unfold peekN
  refine (sim_peekNLoop _ _).bind fun a _ e => ?_
  subst e
  refine sim_tok.bind fun a _ e => ?_
  subst e
  refine (sim_unNextAll _).bind fun _ _ _ => Sim.pure rfl

theorem sim_consumeToken (t : Token) : SimP ρ Eq (consumeToken t) (consumeToken t) := by
  unfold consumeToken; sim

theorem sim_readEmptyStatement : SimP ρ Eq readEmptyStatement readEmptyStatement := by
  unfold readEmptyStatement; sim

theorem sim_readFullIdentLoop (n : Nat) (x : Str) :
    SimP ρ Eq (readFullIdentLoop n x) (readFullIdentLoop n x) := by
  induction n generalizing x with
  | zero => exact Sim.fuel
  | succ n ih => unfold readFullIdentLoop; sim; all_goals exact ih _
macro_rules | `(tactic| simlem) => `(tactic| exact Lexer.sim_readFullIdentLoop _ _)

theorem sim_readFullIdent : SimP ρ (RPair Eq ρ.pos) readFullIdent readFullIdent := by
  unfold readFullIdent; sim

theorem sim_readMessageTypeLoop (n : Nat) (x : Str) :
    SimP ρ Eq (readMessageTypeLoop n x) (readMessageTypeLoop n x) := by
  induction n generalizing x with
  | zero => exact Sim.fuel
  | succ n ih => unfold readMessageTypeLoop; sim; all_goals exact ih _
macro_rules | `(tactic| simlem) => `(tactic| exact Lexer.sim_readMessageTypeLoop _ _)

theorem sim_readLeadingDot : SimP ρ Eq readLeadingDot readLeadingDot := by
  unfold readLeadingDot; sim
macro_rules | `(tactic| simlem) => `(tactic| exact Lexer.sim_readLeadingDot)

theorem sim_readMessageType : SimP ρ (RPair Eq ρ.pos) readMessageType readMessageType := by
  unfold readMessageType; sim

theorem sim_mergeLoop (q : Char) (n : Nat) (x : Str) : SimP ρ Eq (mergeLoop q n x) (mergeLoop q n x) := by
  induction n generalizing x with
  | zero => exact Sim.fuel
  | succ n ih => unfold mergeLoop; sim; all_goals exact ih _
macro_rules | `(tactic| simlem) => `(tactic| exact Lexer.sim_mergeLoop _ _ _)

theorem sim_merge : SimP ρ Eq mergeMultilineStrLit mergeMultilineStrLit := by
  unfold mergeMultilineStrLit; sim
macro_rules | `(tactic| simlem) => `(tactic| exact Lexer.sim_merge)
macro_rules | `(tactic| simlem) => `(tactic| exact Lexer.sim_readFullIdent)

theorem sim_readConstant (b : Bool) : SimP ρ (RPair Eq ρ.pos) (readConstant b) (readConstant b) := by
  unfold readConstant; sim

end Lexer

macro_rules | `(tactic| simlem) => `(tactic| exact Lexer.sim_nextN _)
macro_rules | `(tactic| simlem) => `(tactic| exact Lexer.sim_peekN _)
macro_rules | `(tactic| simlem) => `(tactic| exact Lexer.sim_consumeToken _)
macro_rules | `(tactic| simlem) => `(tactic| exact Lexer.sim_readEmptyStatement)
macro_rules | `(tactic| simlem) => `(tactic| exact Lexer.sim_readMessageType)
macro_rules | `(tactic| simlem) => `(tactic| exact Lexer.sim_readConstant _)

end Verif
