import Verif.Spec.Raw
import Verif.Model.Api
import Verif.Proofs.LexGrammar

/-!
# What a token tells about its text, for every text
-/

set_option backward.isDefEq.respectTransparency false
set_option backward.dsimp.instances true

namespace Verif
open Spec

/-- Whatever is returned satisfies `Q`. -/
def Out {σ ε α : Type} (Q : α → σ → Prop) (r : Res σ ε α) : Prop := ∀ a s, r = .ok a s → Q a s

section
variable {σ ε α β : Type} {Q Q' : α → σ → Prop} {R : β → σ → Prop} {s : σ}

theorem out_pure {a : α} (h : Q a s) : Out Q ((pure a : M σ ε α) s) := by
  intro a' s' e; cases e; exact h

theorem out_bind {m : M σ ε β} {f : β → M σ ε α} (h1 : Out R (m s))
    (h2 : ∀ b s', R b s' → Out Q (f b s')) : Out Q ((m >>= f) s) := by
  intro a s' e
  simp only [bind, M.bind] at e
  cases hm : m s with
  | ok b s1 => rw [hm] at e; exact h2 b s1 (h1 _ _ hm) _ _ e
  | err _ _ => rw [hm] at e; cases e
  | halt _ => rw [hm] at e; cases e

theorem out_true {r : Res σ ε α} : Out (fun _ _ => True) r := fun _ _ _ => trivial

theorem out_step {m : M σ ε β} {f : β → M σ ε α} (h2 : ∀ b s', Out Q (f b s')) : Out Q ((m >>= f) s) :=
  out_bind out_true (fun b s' _ => h2 b s')

theorem out_mono {r : Res σ ε α} (h : Out Q r) (h' : ∀ a s, Q a s → Q' a s) : Out Q' r :=
  fun a s e => h' a s (h a s e)

theorem out_ite {p : Prop} [Decidable p] {a b : M σ ε α} (h1 : p → Out Q (a s)) (h2 : ¬ p → Out Q (b s)) :
    Out Q ((if p then a else b) s) := by
  split
  · exact h1 ‹_›
  · exact h2 ‹_›

theorem out_stop {h : Halt} : Out Q ((M.stop h : M σ ε α) s) := by intro a s' e; cases e
theorem out_throw {e : ε} : Out Q ((M.throw e : M σ ε α) s) := by intro a s' h; cases h

theorem out_attempt {m : M σ ε α} (h : Out Q (m s)) :
    Out (fun r s' => ∀ a, r = .ok a → Q a s') (M.attempt m s) := by
  intro r s' e a ha
  subst ha
  simp only [M.attempt] at e
  cases hm : m s with
  | ok b s1 => rw [hm] at e; cases e; exact h _ _ hm
  | err _ _ => rw [hm] at e; cases e
  | halt _ => rw [hm] at e; cases e
end

namespace Scanner
variable {α : Type} {s : Scanner} {c : Char}

/-- The next rune is `c`. -/
def Head (s : Scanner) (c : Char) : Prop := c ≠ eof ∧ ∃ r, s.inp = c :: r

theorem out_unexpected {Q : α → Scanner → Prop} {e : String} : Out Q ((unexpected c e : S α) s) := by
  intro a s' h; cases h

theorem out_read (h : Head s c) : Out (fun a _ => a = c) (read s) := by
  obtain ⟨hc, r, h⟩ := h
  intro a s' e
  simp only [read, h, if_neg hc] at e
  cases e; rfl

theorem out_peek : Out (fun a s' => a = eof ∨ Head s' a) (peek s) := by
  intro a s' e
  cases hi : s.inp with
  | nil => simp [peek, bind, M.bind, read, hi, pure, M.pure] at e; exact .inl e.1.symm
  | cons d r =>
    by_cases hd : d = eof
    · simp [peek, bind, M.bind, read, hi, pure, M.pure, hd] at e; exact .inl e.1.symm
    · simp [peek, bind, M.bind, read, hi, pure, M.pure, hd, M.modify, unread] at e
      obtain ⟨rfl, rfl⟩ := e
      exact .inr ⟨hd, _, rfl⟩

theorem out_peek_head (h : Head s c) : Out (fun a s' => a = c ∧ Head s' c) (peek s) := by
  obtain ⟨hc, r, hi⟩ := h
  intro a s' e
  simp [peek, bind, M.bind, read, hi, pure, M.pure, hc, M.modify, unread] at e
  obtain ⟨rfl, rfl⟩ := e
  exact ⟨rfl, hc, _, rfl⟩

theorem out_isEOF : Out (fun _ _ => True) (isEOF s) := out_true

theorem out_isEOF_head (h : Head s c) : Out (fun b s' => b = false ∧ Head s' c) (isEOF s) := by
  unfold isEOF
  refine out_bind (out_peek_head h) fun a s' h => out_pure ?_
  obtain ⟨rfl, h⟩ := h
  exact ⟨by simp [h.1], h⟩

theorem out_bound {Q : α → Scanner → Prop} {f : Nat → S α} (h : ∀ n, Out Q (f n s)) :
    Out Q ((bound >>= f) s) := h _

theorem out_digits {cls : Char → Bool} (hc : cls eof = false) (n : Nat) : ∀ {s : Scanner} {lit : Str},
    Out (fun r _ => ∃ ds, r = lit ++ ds ∧ ∀ d ∈ ds, cls d = true) (digitsLoop cls n lit s) := by
  induction n with
  | zero => exact out_stop
  | succ n ih =>
    intro s lit
    unfold digitsLoop
    refine out_step fun b s => out_ite (fun _ => out_pure ⟨[], by simp⟩) fun _ => out_bind out_peek fun d s hd =>
      out_ite (fun _ => out_pure ⟨[], by simp⟩) fun h => ?_
    have h : cls d = true := by simpa using h
    have hd : Head s d := by
      rcases hd with rfl | hd
      · rw [hc] at h; cases h
      · exact hd
    refine out_bind (out_read hd) fun d' s' e => ?_
    subst e
    refine out_mono ih ?_
    rintro r _ ⟨ds, rfl, h'⟩
    refine ⟨d' :: ds, by simp, ?_⟩
    intro x hx
    simp only [List.mem_cons] at hx
    rcases hx with rfl | hx
    · exact h
    · exact h' _ hx

theorem out_identLoop (n : Nat) : ∀ {s : Scanner} {lit : Str},
    Out (fun r _ => ∃ ds, r = lit ++ ds ∧ ∀ d ∈ ds, WordChar d) (scanIdentLoop n lit s) := by
  induction n with
  | zero => exact out_stop
  | succ n ih =>
    intro s lit
    unfold scanIdentLoop
    refine out_bind out_peek fun d s hd => out_ite (fun h => ?_) fun _ => out_pure ⟨[], by simp⟩
    have hd : Head s d := by
      rcases hd with rfl | hd
      · exact absurd h (by decide)
      · exact hd
    have h : WordChar d := by
      rcases h with h | h | h
      · exact .inl (mem_letters.2 h)
      · exact .inr (.inl (mem_decimals.2 h))
      · exact .inr (.inr h)
    refine out_bind (out_read hd) fun d' s' e => ?_
    subst e
    refine out_mono ih ?_
    rintro r _ ⟨ds, rfl, h'⟩
    refine ⟨d' :: ds, by simp, ?_⟩
    intro x hx
    simp only [List.mem_cons] at hx
    rcases hx with rfl | hx
    · exact h
    · exact h' _ hx

theorem out_ident (h : Head s c) (hc : WordStart c) : Out (fun r _ => Word r) (scanIdent s) := by
  unfold scanIdent
  refine out_bind (out_read h) fun d s e => out_bound fun n => out_mono (out_identLoop n) ?_
  rintro r _ ⟨ds, rfl, h'⟩
  subst e
  exact .mk _ _ hc h'

theorem out_strLoop {q : Char} (n : Nat) : ∀ {s : Scanner} {ch : Char} {lit : Str}, q ≠ eof →
    (ch = eof ∨ Head s ch) → Out (fun r s' => (∃ w, r = lit ++ w) ∧ Head s' q) (strLitLoop q n ch lit s) := by
  induction n with
  | zero => exact fun _ _ => out_stop
  | succ n ih =>
    intro s ch lit hq h
    unfold strLitLoop
    refine out_ite (fun _ => out_step fun cv s => out_bind out_peek fun d s hd => ?_) fun hc => out_pure ?_
    · refine out_mono (ih hq hd) ?_
      rintro r _ ⟨⟨w, rfl⟩, h⟩
      exact ⟨⟨cv ++ w, by simp⟩, h⟩
    · have hc : ch = q := by simpa using hc
      subst hc
      exact ⟨⟨[], by simp⟩, h.resolve_left hq⟩

theorem out_str (h : Head s c) (hc : isQuote c = true) : Out (fun r _ => Quoted r) (scanStrLit s) := by
  unfold scanStrLit
  refine out_bind (out_read h) fun d s e => out_bind out_peek fun ch s hch => out_bound fun n => ?_
  subst e
  refine out_bind (out_strLoop n h.1 hch) ?_
  rintro r s' ⟨⟨w, rfl⟩, h'⟩
  refine out_bind (out_read h') fun x s e => out_pure ?_
  subst e
  have hc : x = '\'' ∨ x = '"' := by simpa [isQuote] using hc
  exact ⟨_, w, hc.symm, by simp⟩

theorem over_of {cls : Char → Bool} {l ds : Str} (h : ∀ d ∈ ds, cls d = true)
    (hl : ∀ {d}, d ∈ l ↔ cls d = true) : Over l ds := fun d hd => hl.2 (h d hd)

theorem out_number (h : Head s c) (hc : isDecimalDigit c = true ∨ c = '.') :
    Out (fun (r : Token × Str) _ => (r.1 = .intLit ∧ IntLit r.2) ∨ r.1 = .floatLit) (scanNumberLit s) := by
  have fl : ∀ {x : Str} {s : Scanner}, Out (fun (r : Token × Str) _ => (r.1 = .intLit ∧ IntLit r.2) ∨
      r.1 = .floatLit) ((pure (Token.floatLit, x) : S (Token × Str)) s) := fun {x s} => out_pure (.inr rfl)
  unfold scanNumberLit
  refine out_bind (out_read h) fun d s e => out_bind out_peek fun ch s hch => ?_
  subst e
  refine out_ite (fun h1 => ?_) fun _ => out_ite (fun _ => out_step fun _ _ => fl) fun h2 =>
    out_ite (fun _ => out_step fun _ _ => out_step fun _ _ => fl) fun _ =>
    out_ite (fun _ => out_step fun _ _ => fl) fun _ => out_ite (fun h3 => ?_) fun h3 => ?_
  · obtain ⟨h0, hx⟩ := h1
    simp only [List.cons.injEq, and_true] at h0
    subst h0
    have hch : Head s ch := hch.resolve_left (by rcases hx with rfl | rfl <;> decide)
    refine out_bind (out_read hch) fun x s e => out_bind out_peek fun g s hg =>
      out_ite (fun _ => out_step fun _ _ => out_unexpected) fun h4 => ?_
    subst e
    have h4 : isHexDigit g = true := by simpa using h4
    have hg : Head s g := by
      rcases hg with rfl | hg
      · exact absurd h4 (by decide)
      · exact hg
    refine out_bind (out_read hg) fun y s e => out_bound fun n =>
      out_bind (out_digits (by decide) n) ?_
    rintro r _ ⟨ds, rfl, h5⟩
    subst e
    refine out_pure (.inl ⟨rfl, ?_⟩)
    refine .hex x (y :: ds) hx (by simp) ?_
    intro z hz
    simp only [List.mem_cons] at hz
    rcases hz with rfl | hz
    · exact mem_hexes.2 h4
    · exact mem_hexes.2 (h5 _ hz)
  · refine out_bound fun n => out_bind (out_digits (by decide) n) ?_
    rintro r _ ⟨ds, rfl, h5⟩
    simp only [List.cons.injEq, and_true] at h3
    subst h3
    exact out_pure (.inl ⟨rfl, .octal _ (over_of h5 mem_octals)⟩)
  · refine out_bound fun n => out_bind (out_digits (by decide) n) ?_
    rintro r s ⟨ds, rfl, h5⟩
    refine out_bind out_peek fun ch s _ => out_ite (fun _ => out_step fun _ _ => out_step fun _ _ => fl) fun _ =>
      out_ite (fun _ => out_step fun _ _ => fl) fun _ => out_pure (.inl ⟨rfl, ?_⟩)
    refine .decimal d ds ?_ ?_ (over_of h5 mem_decimals)
    · refine mem_decimals.2 (hc.resolve_right ?_)
      rintro rfl; exact h2 rfl
    · rintro rfl; exact h3 rfl

/-- What a token tells about its text. -/
structure Lexed (t : Token) (x : Str) : Prop where
  ident : t = .ident → Word x
  int : t = .intLit → IntLit x
  str : t = .strLit → Quoted x
  dot : t = .dot → x = c!"."

theorem lexed_misc : ∀ t : Token, t ≠ .ident → t ≠ .intLit → t ≠ .strLit → t ≠ .dot → ∀ x, Lexed t x :=
  fun _ h1 h2 h3 h4 _ => ⟨fun h => absurd h h1, fun h => absurd h h2, fun h => absurd h h3, fun h => absurd h h4⟩

/-- A token of a single rune. -/
def MiscTok (ch : Char) (t : Token) : Prop :=
  t ≠ .ident ∧ t ≠ .intLit ∧ t ≠ .strLit ∧ (t = .dot → ch = '.')

theorem misc_ite {ch : Char} {p : Prop} [Decidable p] {a b : Token} (h1 : p → MiscTok ch a) (h2 : MiscTok ch b) :
    MiscTok ch (if p then a else b) := by
  split
  · exact h1 ‹_›
  · exact h2

theorem misc_token (ch : Char) : MiscTok ch (asMiscToken ch) := by
  unfold asMiscToken
  repeat refine misc_ite (fun h => ⟨nofun, nofun, nofun, fun e => by first | exact h | cases e⟩) ?_
  exact ⟨nofun, nofun, nofun, nofun⟩

theorem keyword_token (x : Str) : asKeywordToken x ≠ .ident ∧ asKeywordToken x ≠ .intLit ∧
    asKeywordToken x ≠ .strLit ∧ asKeywordToken x ≠ .dot := by
  unfold asKeywordToken
  split
  · next kv h =>
    have hm := List.mem_of_find?_eq_some h
    have : ∀ kv ∈ keywordTable, kv.2 ≠ .ident ∧ kv.2 ≠ .intLit ∧ kv.2 ≠ .strLit ∧ kv.2 ≠ .dot := by decide
    exact this kv hm
  · simp

theorem out_scanLoop (n : Nat) : ∀ {s : Scanner},
    Out (fun r _ => Lexed r.token r.text) (scanLoop n s) := by
  induction n with
  | zero => exact out_stop
  | succ n ih =>
    intro s
    unfold scanLoop
    refine out_bind out_peek fun ch s hch => ?_
    refine out_bind (R := fun _ s' => s' = s) (by intro a s' e; cases e; rfl) fun st s' es => ?_
    subst es
    refine out_ite (fun _ => out_step fun _ _ => ih) fun _ => ?_
    refine out_bind (R := fun _ s1 => ch = eof ∨ Head s1 ch) ?_ fun b s hch => ?_
    · rcases hch with rfl | hch
      · exact fun _ _ _ => .inl rfl
      · exact out_mono (out_isEOF_head hch) fun _ _ h => .inr h.2
    refine out_ite (fun _ => out_pure (lexed_misc _ (by simp) (by simp) (by simp) (by simp) _)) fun _ => ?_
    refine out_ite (fun h => ?_) fun _ => ?_
    · have hh : Head s ch := by
        rcases hch with rfl | hch
        · exact absurd h (by decide)
        · exact hch
      refine out_bind (out_ident hh (wordStart_iff.2 h)) fun x s hx => ?_
      refine out_ite (fun _ => out_pure (lexed_misc _ (by simp) (by simp) (by simp) (by simp) _)) fun _ =>
        out_ite (fun _ => out_pure (lexed_misc _ (by simp) (by simp) (by simp) (by simp) _)) fun _ =>
        out_ite (fun _ => out_pure ?_) fun _ => out_pure ?_
      · obtain ⟨k1, k2, k3, k4⟩ := keyword_token x
        exact lexed_misc _ k1 k2 k3 k4 _
      · exact ⟨fun _ => hx, by simp, by simp, by simp⟩
    refine out_ite (fun _ => ?_) fun _ => ?_
    · refine out_step fun r s => ?_
      cases r with
      | error e => exact out_pure (lexed_misc _ (by simp) (by simp) (by simp) (by simp) _)
      | ok lit =>
        exact out_step fun _ _ => out_ite
          (fun _ => out_pure (lexed_misc _ (by simp) (by simp) (by simp) (by simp) _)) fun _ => ih
    refine out_ite (fun h => ?_) fun _ => ?_
    · have hh : Head s ch := by
        rcases hch with rfl | hch
        · exact absurd h.1 (by decide)
        · exact hch
      refine out_bind (out_attempt (out_str hh h.1)) fun r s hr => ?_
      cases r with
      | error e => exact out_pure (lexed_misc _ (by simp) (by simp) (by simp) (by simp) _)
      | ok lit => exact out_pure ⟨by simp, by simp, fun _ => hr _ rfl, by simp⟩
    refine out_ite (fun h => ?_) fun _ => ?_
    · have hh : Head s ch := by
        rcases hch with rfl | hch
        · exact absurd h.1 (by decide)
        · exact hch
      refine out_bind (out_attempt (out_number hh h.1)) fun r s hr => ?_
      cases r with
      | error e => exact out_pure (lexed_misc _ (by simp) (by simp) (by simp) (by simp) _)
      | ok lit =>
        obtain ⟨t, x⟩ := lit
        refine out_pure ?_
        rcases hr _ rfl with ⟨rfl, hx⟩ | rfl
        · exact ⟨by simp, fun _ => hx, by simp, by simp⟩
        · exact lexed_misc _ (by simp) (by simp) (by simp) (by simp) _
    · obtain ⟨k1, k2, k3, k4⟩ := misc_token ch
      rcases hch with rfl | hch
      · have e : asMiscToken eof = .illegal := by decide
        exact out_step fun _ _ => out_pure (lexed_misc _ k1 k2 k3 (by simp [e]) _)
      · refine out_bind (out_read hch) fun d s e => out_pure ?_
        subst e
        exact ⟨fun h => absurd h k1, fun h => absurd h k2, fun h => absurd h k3, fun h => by rw [k4 h]⟩

theorem out_scan : Out (fun r _ => Lexed r.token r.text) (scan s) := by
  unfold scan
  exact out_step fun _ _ => out_bound fun n => out_scanLoop n

end Scanner

namespace Lexer
open Scanner (Lexed)

/-- After the call the current token tells about the current text. -/
def Reads (nx : P Unit) : Prop := ∀ l, Out (fun _ l' => Lexed l'.token l'.text) (nx l)

theorem reads_cur : Reads nextCur := by
  intro l a l' e
  simp only [nextCur] at e
  cases h : Scanner.scan l.scanner with
  | ok r sc => rw [h] at e; cases e; exact Scanner.out_scan r sc h
  | err _ _ => rw [h] at e; cases e
  | halt _ => rw [h] at e; cases e

theorem reads_with (m : Mode) : Reads (nextWith m) := by
  intro l a l' e
  simp only [nextWith] at e
  cases h : nextCur { l with scanner := { l.scanner with mode := m } } with
  | ok r l1 =>
    have := reads_cur _ _ _ h
    rw [h] at e; cases e; exact this
  | err _ _ => rw [h] at e; cases e
  | halt _ => rw [h] at e; cases e

theorem reads_next : Reads next := reads_cur

end Lexer
end Verif
