import Verif.Model.Reader

/-!
# What a reader gives
-/

namespace Verif.Spec

/-- States and texts related by `H`: what is read in the state is the first rune of the text, and then the rest is
left; at the end of the text there is an error, for ever.  A NUL in the text is a NUL or an error. -/
def Serves {ρ : Type} (rd : RuneReader ρ) (H : ρ → Str → Prop) : Prop :=
  (∀ r, H r [] → (rd.readRune r).1 = none ∧ H (rd.readRune r).2 []) ∧
  ∀ r ch t, H r (ch :: t) → (rd.readRune r).1.getD eof = ch ∧ H (rd.readRune r).2 t

/-- The reader gives the runes of `t`, and then errors. -/
def Gives {ρ : Type} (rd : RuneReader ρ) (r : ρ) (t : Str) : Prop := ∃ H, H r t ∧ Serves rd H

theorem Gives.nil {ρ : Type} {rd : RuneReader ρ} {r : ρ} (h : Gives rd r []) :
    (rd.readRune r).1 = none ∧ Gives rd (rd.readRune r).2 [] := by
  obtain ⟨H, h, s⟩ := h
  exact ⟨(s.1 r h).1, H, (s.1 r h).2, s⟩

theorem Gives.cons {ρ : Type} {rd : RuneReader ρ} {r : ρ} {ch : Char} {t : Str} (h : Gives rd r (ch :: t)) :
    (rd.readRune r).1.getD eof = ch ∧ Gives rd (rd.readRune r).2 t := by
  obtain ⟨H, h, s⟩ := h
  exact ⟨(s.2 r ch t h).1, H, (s.2 r ch t h).2, s⟩

theorem gives_text (t : Str) : Gives textReader t t :=
  ⟨fun r t => r = t, rfl, fun _ h => by subst h; exact ⟨rfl, rfl⟩, fun _ _ _ h => by subst h; exact ⟨rfl, rfl⟩⟩

/-! ## What a source delivers -/

/-- Every read fails, without bytes, for ever. -/
def Failing {σ : Type} (io : IOReader σ) (s : σ) : Prop :=
  ∃ E : σ → Prop, E s ∧ ∀ s, E s → ∀ n, (io.read n s).1 = [] ∧ (io.read n s).2.1 ≠ none ∧ E (io.read n s).2.2

/-- In at most `N` reads, however many bytes each of them asks for, the bytes of `segs` are delivered in pieces, with an
error at the end of each segment, together with the last bytes or behind them; after the last error `Failing` holds.
There are never 100 reads in a row without bytes and without an error; `k` have just happened. -/
def DeliversIn {σ : Type} (io : IOReader σ) : Nat → Nat → σ → List (List Nat) → Prop
  | _, _, s, [] => Failing io s
  | 0, _, _, _ :: _ => False
  | N + 1, k, s, bs :: segs => ∀ n, 0 < n →
    match io.read n s with
    | (ds, some _, s') => ds = bs ∧ DeliversIn io N 0 s' segs
    | ([], none, s') => k + 1 < 100 ∧ DeliversIn io N (k + 1) s' (bs :: segs)
    | (ds, none, s') => ∃ bs', bs = ds ++ bs' ∧ DeliversIn io N 0 s' (bs' :: segs)

/-- The source delivers the bytes of `segs`, with an error behind each segment. -/
def Delivers {σ : Type} (io : IOReader σ) (s : σ) (segs : List (List Nat)) : Prop := ∃ N, DeliversIn io N 0 s segs

/-- The runes of the segments; an error that is not the last one is a NUL. -/
def runes : List (List Nat) → Str
  | [] => []
  | [bs] => Utf8.decode bs
  | bs :: segs => Utf8.decode bs ++ eof :: runes segs

/-- Two readers give the same runes, for ever; an error counts as the rune `eof`, which is what the code makes of it.
Neither has to come to an end. -/
def SameRunes {ρ ρ' : Type} (rd : RuneReader ρ) (rd' : RuneReader ρ') (r : ρ) (r' : ρ') : Prop :=
  ∃ H : ρ → ρ' → Prop, H r r' ∧ ∀ s s', H s s' →
    (rd.readRune s).1.getD eof = (rd'.readRune s').1.getD eof ∧ H (rd.readRune s).2 (rd'.readRune s').2

theorem SameRunes.step {ρ ρ' : Type} {rd : RuneReader ρ} {rd' : RuneReader ρ'} {r : ρ} {r' : ρ'}
    (h : SameRunes rd rd' r r') : (rd.readRune r).1.getD eof = (rd'.readRune r').1.getD eof ∧
      SameRunes rd rd' (rd.readRune r).2 (rd'.readRune r').2 := by
  obtain ⟨H, h, s⟩ := h
  exact ⟨(s _ _ h).1, H, (s _ _ h).2, s⟩

/-- Readers that give the same finite text give the same. -/
theorem SameRunes.of_gives {ρ ρ' : Type} {rd : RuneReader ρ} {rd' : RuneReader ρ'} {r : ρ} {r' : ρ'} {t : Str}
    (h : Gives rd r t) (h' : Gives rd' r' t) : SameRunes rd rd' r r' := by
  refine ⟨fun s s' => ∃ t, Gives rd s t ∧ Gives rd' s' t, ⟨t, h, h'⟩, ?_⟩
  rintro s s' ⟨t, h, h'⟩
  cases t with
  | nil => exact ⟨by rw [h.nil.1, h'.nil.1], [], h.nil.2, h'.nil.2⟩
  | cons ch t => exact ⟨by rw [h.cons.1, h'.cons.1], t, h.cons.2, h'.cons.2⟩

end Verif.Spec
