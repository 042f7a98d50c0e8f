import Verif.Spec.Reader

set_option backward.isDefEq.respectTransparency false
set_option backward.dsimp.instances true

/-!
# The buffered reader delivers the runes of the source
-/

namespace Verif

open Spec Bufio

/-- What follows a full rune does not matter for its decoding. -/
theorem decodeRune_full {b0 : Nat} {bs : List Nat} (h : fullRune (b0 :: bs) = true) (more : List Nat) :
    Utf8.decodeRune b0 (bs ++ more) = ((Utf8.decodeRune b0 bs).1, (Utf8.decodeRune b0 bs).2 ++ more) := by
  simp only [fullRune] at h
  have hl : Utf8.lengthOf b0 = 0 ∨ Utf8.lengthOf b0 = 1 ∨ Utf8.lengthOf b0 = 2 ∨ Utf8.lengthOf b0 = 3 ∨
      Utf8.lengthOf b0 = 4 := by
    unfold Utf8.lengthOf
    split
    · simp
    · split
      · simp
      · split
        · simp
        · split
          · simp
          · split <;> simp
  unfold Utf8.decodeRune
  rcases hl with hl | hl | hl | hl | hl <;> rw [hl] at h ⊢
  · simp
  · simp
  · match bs, h with
    | [], h => simp at h
    | b1 :: r, _ => simp only [List.cons_append]; split <;> simp
  · match bs, h with
    | [], h => simp at h
    | [b1], h =>
      simp at h
      match more with
      | [] => simp
      | m :: ms => simp [h]
    | b1 :: b2 :: r, _ => simp only [List.cons_append]; split <;> simp
  · match bs, h with
    | [], h => simp at h
    | [b1], h =>
      simp at h
      match more with
      | [] => simp
      | [m] => simp
      | m :: m' :: ms => simp [h]
    | [b1, b2], h =>
      simp at h
      match more with
      | [] => simp
      | m :: ms =>
        simp only [List.cons_append, List.nil_append]
        rw [if_neg (by simpa using fun h1 h2 => by rcases h with h | h <;> simp_all)]
    | b1 :: b2 :: b3 :: r, _ => simp only [List.cons_append]; split <;> simp

variable {σ : Type} {io : IOReader σ} {size : Nat}

/-- The bytes before those of the first segment. -/
def glue (d : List Nat) : List (List Nat) → List (List Nat)
  | [] => [d]
  | bs :: segs => (d ++ bs) :: segs

/-- The segments that a buffered reader still has to give. -/
def Has (io : IOReader σ) (b : Bufio σ) (segs : List (List Nat)) : Prop :=
  ∃ rest, Delivers io b.src rest ∧ segs = match b.err with | some _ => b.data :: rest | none => glue b.data rest

theorem deliversIn_ended {N k : Nat} {s : σ} (h : DeliversIn io N k s []) : Failing io s := by
  unfold DeliversIn at h; exact h

theorem ended_read {s : σ} (h : Failing io s) (n : Nat) :
    (io.read n s).1 = [] ∧ (io.read n s).2.1 ≠ none ∧ Failing io (io.read n s).2.2 := by
  obtain ⟨E, h1, h2⟩ := h
  obtain ⟨a, b, c⟩ := h2 s h1 n
  exact ⟨a, b, E, c, h2⟩

theorem delivers_nil {s : σ} : Delivers io s [] ↔ Failing io s :=
  ⟨fun ⟨_, h⟩ => deliversIn_ended h, fun h => ⟨0, by unfold DeliversIn; exact h⟩⟩

/-- What one read makes of the buffer. -/
theorem read_has {n j N : Nat} (hn : 0 < n) {s : σ} {rest : List (List Nat)} (h : DeliversIn io N j s rest)
    (d : List Nat) :
    (∃ e, (io.read n s).2.1 = some e ∧ ∃ rest', Delivers io (io.read n s).2.2 rest' ∧
      glue d rest = (d ++ (io.read n s).1) :: rest') ∨
    ((io.read n s).2.1 = none ∧ (io.read n s).1 ≠ [] ∧ ∃ rest', Delivers io (io.read n s).2.2 rest' ∧
      glue d rest = glue (d ++ (io.read n s).1) rest') ∨
    ((io.read n s).2.1 = none ∧ (io.read n s).1 = [] ∧ j + 1 < 100 ∧ ∃ N, DeliversIn io N (j + 1) (io.read n s).2.2 rest) := by
  match N, rest, h with
  | N, [], h =>
    obtain ⟨h1, h2, h3⟩ := ended_read (deliversIn_ended h) n
    obtain ⟨e, he⟩ := Option.ne_none_iff_exists'.1 h2
    exact .inl ⟨e, he, [], delivers_nil.2 h3, by simp [glue, h1]⟩
  | 0, _ :: _, h => unfold DeliversIn at h; exact h.elim
  | N + 1, bs :: segs, h =>
    unfold DeliversIn at h
    have := h n hn
    clear h
    revert this
    obtain ⟨ds, e, s'⟩ := io.read n s
    cases e with
    | some e =>
      rintro ⟨rfl, h⟩
      exact .inl ⟨e, rfl, segs, ⟨N, h⟩, by simp [glue]⟩
    | none =>
      cases ds with
      | nil => rintro ⟨h1, h2⟩; exact .inr (.inr ⟨rfl, rfl, h1, N, h2⟩)
      | cons a ds =>
        rintro ⟨bs', rfl, h⟩
        exact .inr (.inl ⟨rfl, by simp, bs' :: segs, ⟨N, h⟩, by simp [glue]⟩)

theorem fillLoop_has {k j : Nat} (hk : j + k = 100) (hj : j < 100) {b : Bufio σ} (hs : b.data.length < size)
    (he : b.err = none) {N : Nat} {rest : List (List Nat)} (h : DeliversIn io N j b.src rest) :
    Has io (fillLoop io size k b) (glue b.data rest) ∧
    ((fillLoop io size k b).err ≠ none ∨ b.data.length < (fillLoop io size k b).data.length) := by
  induction k generalizing j N b with
  | zero => omega
  | succ k ih =>
    obtain ⟨src, data, err⟩ := b
    simp only at he hs h ⊢
    subst he
    unfold fillLoop
    have := read_has (n := size - data.length) (by omega) h data
    revert this
    simp only
    generalize io.read (size - data.length) src = x
    obtain ⟨ds, e, s'⟩ := x
    simp only
    rintro (⟨e, rfl, rest', h1, h2⟩ | ⟨rfl, h0, rest', h1, h2⟩ | ⟨rfl, rfl, h0, N', h1⟩)
    · exact ⟨⟨rest', h1, h2⟩, .inl (by simp)⟩
    · have : ds.length > 0 := by cases ds with | nil => exact absurd rfl h0 | cons => simp
      simp only [if_pos this]
      exact ⟨⟨rest', h1, h2⟩, .inr (by simp; exact this)⟩
    · simp only [List.length_nil, gt_iff_lt, Nat.lt_irrefl, if_false, List.append_nil]
      exact ih (by omega) h0 hs rfl h1

theorem fill_has {b : Bufio σ} (hs : b.data.length < size) (he : b.err = none) {segs : List (List Nat)}
    (h : Has io b segs) : Has io (fill io size b) segs ∧
      ((fill io size b).err ≠ none ∨ b.data.length < (fill io size b).data.length) := by
  obtain ⟨rest, ⟨N, h1⟩, h2⟩ := h
  rw [he] at h2
  subst h2
  exact fillLoop_has (by omega) (by omega) hs he h1

theorem lengthOf_le (b0 : Nat) : Utf8.lengthOf b0 ≤ 4 := by
  unfold Utf8.lengthOf
  split
  · omega
  · split
    · omega
    · split
      · omega
      · split
        · omega
        · split <;> omega

theorem fullRune_of_length {d : List Nat} (h : 4 ≤ d.length) : fullRune d = true := by
  cases d with
  | nil => simp at h
  | cons b0 p =>
    have := lengthOf_le b0
    simp only [List.length_cons] at h
    simp only [fullRune]
    rw [if_pos (by omega)]

/-- After the loop there is a full rune, or an error. -/
theorem waitRune_has (h4 : 4 ≤ size) {n : Nat} {b : Bufio σ} (hn : b.err ≠ none ∨ 4 ≤ n + b.data.length)
    {segs : List (List Nat)} (h : Has io b segs) :
    Has io (waitRune io size n b) segs ∧ (fullRune (waitRune io size n b).data = true ∨
      (waitRune io size n b).err ≠ none) := by
  induction n generalizing b with
  | zero =>
    refine ⟨h, ?_⟩
    rcases hn with hn | hn
    · exact .inr hn
    · exact .inl (fullRune_of_length (d := b.data) (by omega))
  | succ n ih =>
    unfold waitRune
    by_cases hc : b.data.length < 4 ∧ fullRune b.data = false ∧ b.err = none ∧ b.data.length < size
    · rw [if_pos hc]
      obtain ⟨h1, h2⟩ := fill_has hc.2.2.2 hc.2.2.1 h
      refine ih ?_ h1
      rcases h2 with h2 | h2
      · exact .inl h2
      · rcases hn with hn | hn
        · exact absurd hc.2.2.1 hn
        · exact .inr (by omega)
    · rw [if_neg hc]
      refine ⟨h, ?_⟩
      by_cases h1 : fullRune b.data = true
      · exact .inl h1
      · by_cases h2 : b.err = none
        · have : ¬ b.data.length < 4 := fun h3 => hc ⟨h3, by simpa using h1, h2, by omega⟩
          exact absurd (fullRune_of_length (by omega)) h1
        · exact .inr h2

theorem decode_cons (b0 : Nat) (bs : List Nat) :
    Utf8.decode (b0 :: bs) = (Utf8.decodeRune b0 bs).1 :: Utf8.decode (Utf8.decodeRune b0 bs).2 := by
  rw [Utf8.decode]

theorem runes_nil_cons (segs : List (List Nat)) : runes ([] :: segs) = if segs = [] then [] else eof :: runes segs := by
  cases segs <;> simp [runes, Utf8.decode]

theorem runes_cons_cons {b0 : Nat} {bs : List Nat} {segs : List (List Nat)} {r : Char × List Nat}
    (h : Utf8.decodeRune b0 bs = r) : runes ((b0 :: bs) :: segs) = r.1 :: runes (r.2 :: segs) := by
  subst h
  cases segs <;> simp [runes, decode_cons]

/-- A buffered reader gives the runes of its segments. -/
theorem serves_bufio (h4 : 4 ≤ size) :
    Serves (bufferedReader io size) (fun b t => ∃ segs, Has io b segs ∧ segs ≠ [] ∧ t = runes segs) := by
  have key : ∀ (b : Bufio σ) (segs : List (List Nat)), Has io b segs → segs ≠ [] →
      (runes segs = [] ∧ (readRune io size b).1 = none ∧
        ∃ segs', Has io (readRune io size b).2 segs' ∧ segs' ≠ [] ∧ runes segs' = []) ∨
      ∃ ch t, runes segs = ch :: t ∧ (readRune io size b).1.getD eof = ch ∧
        ∃ segs', Has io (readRune io size b).2 segs' ∧ segs' ≠ [] ∧ runes segs' = t := by
    intro b segs h _
    obtain ⟨⟨rest, h1, h2⟩, h3⟩ := waitRune_has h4 (n := 5) (.inr (by omega)) h
    unfold readRune
    simp only
    generalize waitRune io size 5 b = b' at h1 h2 h3
    obtain ⟨src, data, err⟩ := b'
    simp only at h1 h2 h3
    cases data with
    | nil =>
      cases err with
      | none => simp [fullRune] at h3
      | some e =>
        simp only at h2
        subst h2
        rw [runes_nil_cons]
        cases rest with
        | nil => exact .inl ⟨rfl, rfl, [[]], ⟨[], h1, rfl⟩, by simp, by simp [runes, Utf8.decode]⟩
        | cons bs rest =>
          exact .inr ⟨eof, _, if_neg (by simp), rfl, bs :: rest, ⟨bs :: rest, h1, rfl⟩, by simp, rfl⟩
    | cons b0 bs =>
      right
      simp only
      cases err with
      | some e =>
        simp only at h2
        subst h2
        exact ⟨_, _, runes_cons_cons rfl, rfl, _, ⟨rest, h1, rfl⟩, by simp, rfl⟩
      | none =>
        have h3 := h3.resolve_right (by simp)
        simp only at h2
        cases rest with
        | nil =>
          subst h2
          exact ⟨_, _, runes_cons_cons rfl, rfl, _, ⟨[], h1, rfl⟩, by simp [glue], rfl⟩
        | cons more rest =>
          subst h2
          exact ⟨_, _, runes_cons_cons (decodeRune_full h3 more), rfl, _, ⟨more :: rest, h1, rfl⟩, by simp [glue], rfl⟩
  constructor
  · rintro b ⟨segs, h, hs, ht⟩
    rcases key b segs h hs with ⟨_, h2, segs', h3, h4, h5⟩ | ⟨ch, t, h2, _⟩
    · exact ⟨h2, segs', h3, h4, h5.symm⟩
    · rw [h2] at ht; cases ht
  · rintro b ch t ⟨segs, h, hs, ht⟩
    rcases key b segs h hs with ⟨h2, _⟩ | ⟨ch', t', h2, h3, segs', h4, h5, h6⟩
    · rw [h2] at ht; cases ht
    · rw [h2] at ht
      injection ht with e1 e2
      subst e1 e2
      exact ⟨h3, segs', h4, h5, h6.symm⟩

/-- A new buffered reader gives the runes of what its source delivers. -/
theorem gives_bufio (h4 : 4 ≤ size) {s : σ} {segs : List (List Nat)} (h : Delivers io s segs) :
    Gives (bufferedReader io size) { src := s } (runes segs) := by
  refine ⟨_, ⟨glue [] segs, ⟨segs, h, rfl⟩, by cases segs <;> simp [glue], ?_⟩, serves_bufio h4⟩
  cases segs <;> simp [glue, runes, Utf8.decode]

end Verif
