import Verif.Props.Readers

/-!
# What Parse takes from its source (C84)
-/

set_option backward.isDefEq.respectTransparency false
set_option backward.dsimp.instances true

namespace Verif.Props
open Spec

variable {ρ : Type}

/-- Whatever stays true of a reader when it is read is true after a call, if it was before: the call does nothing else
with its reader. -/
theorem reader_keeps (rd : RuneReader ρ) {I : ρ → Prop} (hI : ∀ s, I s → I (rd.readRune s).2) {r r' : ρ} (h : I r)
    {fuel left : Nat} {options : List ParseOpt} (hr : readerAfter rd fuel r left options = some r') : I r' := by
  letI : Source ρ := ⟨rd⟩
  letI : Linked ρ ρ := { Link := fun _ _ => False, Gone := I, step := fun _ _ h => h.elim, gone := hI }
  have := (Par.par_parseProto (ρ := ρ) (ρ' := ρ)
    { permissive := (configOf options).permissive, bodyIncludingComments := (configOf options).bodyIncludingComments,
      fuel }
    (Machine.new r left (configOf options).filename)).1 h
  change GoneRes ρ (Machine.runProto fuel (configOf options) r left) at this
  unfold readerAfter at hr
  revert this hr
  cases Machine.runProto fuel (configOf options) r left with
  | ok a k => intro hr h; exact Option.some.inj hr ▸ h
  | err e k => intro hr h; exact Option.some.inj hr ▸ h
  | halt _ => intro hr; cases hr

/-- C84, for a text: what a call leaves unread is an end of the text. -/
theorem text_left (src : Str) {r : Str} {fuel left : Nat} {options : List ParseOpt}
    (h : readerAfter textReader fuel src left options = some r) : r <:+ src := by
  refine reader_keeps textReader (I := fun r => r <:+ src) (fun s hs => ?_) (List.suffix_refl _) h
  cases s with
  | nil => exact hs
  | cons ch t => exact (List.suffix_cons ch t).trans hs

/-- A source that counts the bytes that it has delivered. -/
def metered {σ : Type} (io : IOReader σ) : IOReader (σ × Nat) where
  read n s := ((io.read n s.1).1, (io.read n s.1).2.1, (io.read n s.1).2.2, s.2 + (io.read n s.1).1.length)
  fits n s := io.fits n s.1

section
variable {σ : Type} (io : IOReader σ) (size : Nat)

/-- What has been delivered but is not in the buffer. -/
def gone (b : Bufio (σ × Nat)) : Int := b.src.2 - b.data.length

theorem fillLoop_meter (n : Nat) : ∀ b : Bufio (σ × Nat), b.data.length ≤ size →
    (Bufio.fillLoop (metered io) size n b).data.length ≤ size ∧ gone (Bufio.fillLoop (metered io) size n b) = gone b := by
  induction n with
  | zero => intro b h; exact ⟨h, rfl⟩
  | succ n ih =>
    intro b h
    have hf := io.fits (size - b.data.length) b.src.1
    have key : (b.data ++ (io.read (size - b.data.length) b.src.1).1).length ≤ size := by
      rw [List.length_append]; omega
    have key' (err : Option IOErr) : gone (Bufio.mk ((io.read (size - b.data.length) b.src.1).2.2,
        b.src.2 + (io.read (size - b.data.length) b.src.1).1.length)
        (b.data ++ (io.read (size - b.data.length) b.src.1).1) err) = gone b := by
      unfold gone
      simp only [List.length_append]
      omega
    unfold Bufio.fillLoop
    simp only [metered] at *
    revert hf key key'
    obtain ⟨ds, e, s'⟩ := io.read (size - b.data.length) b.src.1
    intro hf key key'
    cases e with
    | some e => exact ⟨key, key' _⟩
    | none =>
      simp only at *
      split
      · exact ⟨key, key' _⟩
      · have := ih { b with src := (s', b.src.2 + ds.length), data := b.data ++ ds } key
        exact ⟨this.1, this.2.trans (key' _)⟩

theorem waitRune_meter (n : Nat) : ∀ b : Bufio (σ × Nat), b.data.length ≤ size →
    (Bufio.waitRune (metered io) size n b).data.length ≤ size ∧ gone (Bufio.waitRune (metered io) size n b) = gone b := by
  induction n with
  | zero => intro b h; exact ⟨h, rfl⟩
  | succ n ih =>
    intro b h
    unfold Bufio.waitRune
    split
    · have h1 := fillLoop_meter io size 100 b h
      have h2 := ih (Bufio.fill (metered io) size b) h1.1
      exact ⟨h2.1, h2.2.trans h1.2⟩
    · exact ⟨h, rfl⟩

theorem decodeRune_takes (b0 : Nat) (bs : List Nat) :
    (Utf8.decodeRune b0 bs).2.length ≤ bs.length ∧ bs.length ≤ (Utf8.decodeRune b0 bs).2.length + 3 := by
  unfold Utf8.decodeRune
  repeat' split
  all_goals simp only [List.length_cons]; omega

/-- The buffer never holds more than its size, and each rune takes at most four bytes out of it. -/
theorem readRune_meter (b : Bufio (σ × Nat)) (h : b.data.length ≤ size) :
    (Bufio.readRune (metered io) size b).2.data.length ≤ size ∧
      gone b ≤ gone (Bufio.readRune (metered io) size b).2 ∧
      gone (Bufio.readRune (metered io) size b).2 ≤ gone b + 4 := by
  obtain ⟨w1, w2⟩ := waitRune_meter io size 5 b h
  unfold Bufio.readRune
  generalize Bufio.waitRune (metered io) size 5 b = w at *
  obtain ⟨src, data, err⟩ := w
  cases data with
  | nil =>
    refine ⟨w1, ?_, ?_⟩
    · unfold gone at w2 ⊢; simp only at *; omega
    · unfold gone at w2 ⊢; simp only at *; omega
  | cons b0 bs =>
    obtain ⟨d1, d2⟩ := decodeRune_takes b0 bs
    simp only [List.length_cons] at w1
    refine ⟨?_, ?_, ?_⟩
    · simp only; omega
    · unfold gone at w2 ⊢; simp only [List.length_cons] at *; omega
    · unfold gone at w2 ⊢; simp only [List.length_cons] at *; omega

/-- The meter does not change what is read. -/
theorem fillLoop_same (n : Nat) : ∀ (b : Bufio σ) (c : Nat),
    ∃ c', Bufio.fillLoop (metered io) size n { src := (b.src, c), data := b.data, err := b.err } =
      { src := ((Bufio.fillLoop io size n b).src, c'), data := (Bufio.fillLoop io size n b).data,
        err := (Bufio.fillLoop io size n b).err } := by
  induction n with
  | zero => intro b c; exact ⟨c, rfl⟩
  | succ n ih =>
    intro b c
    unfold Bufio.fillLoop
    simp only [metered]
    obtain ⟨ds, e, s'⟩ := io.read (size - b.data.length) b.src
    cases e with
    | some e => exact ⟨_, rfl⟩
    | none =>
      simp only
      split
      · exact ⟨_, rfl⟩
      · exact ih { b with src := s', data := b.data ++ ds } _

theorem waitRune_same (n : Nat) : ∀ (b : Bufio σ) (c : Nat),
    ∃ c', Bufio.waitRune (metered io) size n { src := (b.src, c), data := b.data, err := b.err } =
      { src := ((Bufio.waitRune io size n b).src, c'), data := (Bufio.waitRune io size n b).data,
        err := (Bufio.waitRune io size n b).err } := by
  induction n with
  | zero => intro b c; exact ⟨c, rfl⟩
  | succ n ih =>
    intro b c
    unfold Bufio.waitRune
    simp only
    split
    · obtain ⟨c', e⟩ := fillLoop_same io size 100 b c
      unfold Bufio.fill
      rw [e]
      exact ih _ c'
    · exact ⟨c, rfl⟩

theorem readRune_same (b : Bufio σ) (c : Nat) :
    ∃ c', Bufio.readRune (metered io) size { src := (b.src, c), data := b.data, err := b.err } =
      ((Bufio.readRune io size b).1, .mk ((Bufio.readRune io size b).2.src, c') (Bufio.readRune io size b).2.data
        (Bufio.readRune io size b).2.err) := by
  obtain ⟨c', e⟩ := waitRune_same io size 5 b c
  refine ⟨c', ?_⟩
  unfold Bufio.readRune
  rw [e]
  generalize Bufio.waitRune io size 5 b = w
  obtain ⟨src, data, err⟩ := w
  cases data with
  | nil => rfl
  | cons b0 bs => rfl

end

/-- Readers that are in a relation under which they give the same runes are still in it after a call of `Parse`. -/
theorem readers_related {ρ' : Type} (rd : RuneReader ρ) (rd' : RuneReader ρ') {H : ρ → ρ' → Prop}
    (hs : ∀ s s', H s s' → (rd.readRune s).1.getD eof = (rd'.readRune s').1.getD eof ∧
      H (rd.readRune s).2 (rd'.readRune s').2)
    {r s : ρ} {r' : ρ'} (h : H r r') {fuel left : Nat} {options : List ParseOpt}
    (hr : readerAfter rd fuel r left options = some s) :
    ∃ s', readerAfter rd' fuel r' left options = some s' ∧ H s s' := by
  letI : Source ρ := ⟨rd⟩
  letI : Source ρ' := ⟨rd'⟩
  letI : Linked ρ ρ' := { Link := H, Gone := fun _ => False, step := fun s s' h => .inr (hs s s' h),
                          gone := fun _ h => h }
  have := (Par.par_parseProto (ρ := ρ) (ρ' := ρ')
    { permissive := (configOf options).permissive, bodyIncludingComments := (configOf options).bodyIncludingComments,
      fuel }
    (Machine.new r left (configOf options).filename)).2 r' h
  change GoneRes ρ' (Machine.runProto fuel (configOf options) r left) ∨
    ParRes (Machine.runProto fuel (configOf options) r left)
      (Machine.runProto fuel (configOf options) r' left) at this
  unfold readerAfter at hr ⊢
  revert this hr
  cases Machine.runProto fuel (configOf options) r left with
  | ok a k =>
    rintro hr (g | g)
    · exact False.elim g
    revert g
    cases Machine.runProto fuel (configOf options) r' left with
    | ok b k' => rintro ⟨rfl, s', rfl, hs'⟩; exact ⟨s', rfl, Option.some.inj hr ▸ hs'⟩
    | err e k' => exact False.elim
    | halt h => exact False.elim
  | err e k =>
    rintro hr (g | g)
    · exact False.elim g
    revert g
    cases Machine.runProto fuel (configOf options) r' left with
    | ok b k' => exact False.elim
    | err e k' => rintro ⟨rfl, s', rfl, hs'⟩; exact ⟨s', rfl, Option.some.inj hr ▸ hs'⟩
    | halt h => exact False.elim
  | halt _ => intro hr; cases hr

/-- The buffer with the meter holds the same as the buffer, and at most four bytes for each rune that has been read have
gone through it. -/
def Meter {σ : Type} (size : Nat) (s : Bufio σ × Nat) (b : Bufio (σ × Nat)) : Prop :=
  (∃ c, b = { src := (s.1.src, c), data := s.1.data, err := s.1.err }) ∧
    b.data.length ≤ size ∧ 0 ≤ gone b ∧ gone b ≤ 4 * s.2

theorem meter_step {σ : Type} (io : IOReader σ) (size : Nat) (s : Bufio σ × Nat) (b : Bufio (σ × Nat))
    (h : Meter size s b) :
    ((counting (bufferedReader io size)).readRune s).1.getD eof =
        ((bufferedReader (metered io) size).readRune b).1.getD eof ∧
      Meter size ((counting (bufferedReader io size)).readRune s).2 ((bufferedReader (metered io) size).readRune b).2 := by
  obtain ⟨b', m⟩ := s
  obtain ⟨⟨c, e⟩, h1, h2, h3⟩ := h
  simp only at e h3
  obtain ⟨c', hc⟩ := readRune_same io size b' c
  rw [← e] at hc
  obtain ⟨k1, k2, k3⟩ := readRune_meter io size b h1
  refine ⟨(congrArg (fun x => x.1.getD eof) hc).symm, ⟨c', congrArg Prod.snd hc⟩, k1, ?_, ?_⟩
  · exact Int.le_trans h2 k2
  · show gone (Bufio.readRune (metered io) size b).2 ≤ 4 * ((m + 1 : Nat) : Int)
    omega

theorem meter_start {σ : Type} (s : σ) (size : Nat) : Meter size ({ src := s }, 0) { src := (s, 0) } :=
  ⟨⟨0, rfl⟩, Nat.zero_le _, Int.le_refl _, Int.le_refl _⟩

/-- C84: a call of `Parse` that has read `n` runes has taken at most four bytes for each of them from its source, and what
fits in the buffer.  What it has taken beyond the runes is in the buffer. -/
theorem source_taken {σ : Type} (io : IOReader σ) (s : σ) (size : Nat) {fuel left n : Nat} {options : List ParseOpt}
    (h : runesRead (bufferedReader io size) fuel { src := s } left options = some n) :
    ∃ b, readerAfter (bufferedReader (metered io) size) fuel { src := (s, 0) } left options = some b ∧
      b.data.length ≤ size ∧ b.data.length ≤ b.src.2 ∧ b.src.2 ≤ 4 * n + b.data.length := by
  unfold runesRead at h
  obtain ⟨⟨b, m⟩, hr, rfl⟩ := Option.map_eq_some_iff.mp h
  obtain ⟨b', hb, _, h1, h2, h3⟩ := readers_related _ (bufferedReader (metered io) size) (meter_step io size)
    (r' := { src := (s, 0) }) (meter_start s size) hr
  refine ⟨b', hb, h1, ?_, ?_⟩
  · unfold gone at h2; omega
  · unfold gone at h3; simp only at h3 ⊢; omega

section
variable {σ : Type} {io : IOReader σ} {d : Nat} (hd : ∀ n s, (io.read n s).1.length ≤ d) (size : Nat)
include hd

theorem fillLoop_slow (n : Nat) : ∀ b : Bufio σ,
    (Bufio.fillLoop io size n b).data.length ≤ b.data.length + d := by
  induction n with
  | zero => intro b; exact Nat.le_add_right _ _
  | succ n ih =>
    intro b
    have hf := hd (size - b.data.length) b.src
    unfold Bufio.fillLoop
    revert hf
    obtain ⟨ds, e, s'⟩ := io.read (size - b.data.length) b.src
    intro hf
    simp only at hf
    cases e with
    | some e => simp only [List.length_append]; omega
    | none =>
      simp only
      split
      · simp only [List.length_append]; omega
      · rename_i h0
        have := ih { b with src := s', data := b.data ++ ds }
        simp only [List.length_append] at this
        omega

theorem waitRune_slow (n : Nat) : ∀ b : Bufio σ, b.data.length ≤ d + 3 →
    (Bufio.waitRune io size n b).data.length ≤ d + 3 := by
  induction n with
  | zero => intro b h; exact h
  | succ n ih =>
    intro b h
    unfold Bufio.waitRune
    split
    · rename_i hc
      refine ih _ ?_
      have : (Bufio.fill io size b).data.length ≤ b.data.length + d := fillLoop_slow hd size 100 b
      omega
    · exact h

theorem readRune_slow (b : Bufio σ) (h : b.data.length ≤ d + 2) :
    (Bufio.readRune io size b).2.data.length ≤ d + 2 := by
  have w := waitRune_slow hd size 5 b (by omega)
  unfold Bufio.readRune
  generalize Bufio.waitRune io size 5 b = w' at *
  obtain ⟨src, data, err⟩ := w'
  cases data with
  | nil => exact Nat.zero_le _
  | cons b0 bs =>
    have := (decodeRune_takes b0 bs).1
    simp only [List.length_cons] at w ⊢
    omega

end

/-- C84: `Parse` does not fill its buffer.  From a source that delivers at most `d` bytes at a time it
has taken at most `d + 2` bytes beyond the four for each rune, however large the buffer is. -/
theorem slow_source_taken {σ : Type} (io : IOReader σ) {d : Nat} (hd : ∀ n s, (io.read n s).1.length ≤ d) (s : σ)
    (size : Nat) {fuel left n : Nat} {options : List ParseOpt}
    (h : runesRead (bufferedReader io size) fuel { src := s } left options = some n) :
    ∃ b, readerAfter (bufferedReader (metered io) size) fuel { src := (s, 0) } left options = some b ∧
      b.src.2 ≤ 4 * n + (d + 2) := by
  obtain ⟨b, hb, _, _, h3⟩ := source_taken io s size h
  have := reader_keeps (bufferedReader (metered io) size) (I := fun b => b.data.length ≤ d + 2)
    (fun b => readRune_slow (io := metered io) (fun n s => hd n s.1) size b) (Nat.zero_le _) hb
  exact ⟨b, hb, by have : b.data.length ≤ d + 2 := this; omega⟩

/-- Counting and metering do not change what is read. -/
theorem metered_run {σ : Type} (io : IOReader σ) (s : σ) (size : Nat) {fuel left n : Nat} {options : List ParseOpt}
    (h : runesRead (bufferedReader io size) fuel { src := s } left options = some n) :
    ∃ b, readerAfter (counting (bufferedReader (metered io) size)) fuel ({ src := (s, 0) }, 0) left options = some (b, n) ∧
      readerAfter (bufferedReader (metered io) size) fuel { src := (s, 0) } left options = some b := by
  unfold runesRead at h
  obtain ⟨⟨b, m⟩, hr, rfl⟩ := Option.map_eq_some_iff.mp h
  obtain ⟨⟨b', m'⟩, hb, e, _⟩ := readers_related _ (counting (bufferedReader (metered io) size))
    (H := fun s s' => s'.2 = s.2 ∧ ∃ c, s'.1 = { src := (s.1.src, c), data := s.1.data, err := s.1.err })
    (by
      rintro ⟨b, m⟩ ⟨b', m'⟩ ⟨e, c, e'⟩
      simp only at e e'
      obtain ⟨c', hc⟩ := readRune_same io size b c
      rw [← e'] at hc
      exact ⟨(congrArg (fun x => x.1.getD eof) hc).symm, congrArg (· + 1) e, c', congrArg Prod.snd hc⟩)
    (r' := ({ src := (s, 0) }, 0)) ⟨rfl, 0, rfl⟩ hr
  simp only at e
  subst e
  obtain ⟨b'', hb', e⟩ := readers_related _ (bufferedReader (metered io) size) (H := fun s s' => s.1 = s')
    (by rintro ⟨b, m⟩ _ rfl; exact ⟨rfl, rfl⟩) (r' := { src := (s, 0) }) rfl hb
  simp only at e
  subst e
  exact ⟨b', hb, hb'⟩

section
variable {σ : Type} {io : IOReader σ} {d : Nat} (hd : ∀ n s, (io.read n s).1.length ≤ d)
  (ha : ∀ n s, ∀ x ∈ (io.read n s).1, x < 0x80) (size : Nat)

include ha in
theorem fillLoop_ascii (n : Nat) : ∀ b : Bufio σ, (∀ x ∈ b.data, x < 0x80) →
    ∀ x ∈ (Bufio.fillLoop io size n b).data, x < 0x80 := by
  induction n with
  | zero => intro b h; exact h
  | succ n ih =>
    intro b h
    have hf := ha (size - b.data.length) b.src
    unfold Bufio.fillLoop
    revert hf
    obtain ⟨ds, e, s'⟩ := io.read (size - b.data.length) b.src
    intro hf
    have key : ∀ x ∈ b.data ++ ds, x < 0x80 := fun x hx => (List.mem_append.mp hx).elim (h x) (hf x)
    cases e with
    | some e => exact key
    | none =>
      simp only
      split
      · exact key
      · exact ih { b with src := s', data := b.data ++ ds } key

theorem fullRune_ascii {b0 : Nat} {bs : List Nat} (h : b0 < 0x80) : Bufio.fullRune (b0 :: bs) = true := by
  have : Utf8.lengthOf b0 = 1 := if_pos h
  simp only [Bufio.fullRune, this]
  exact if_pos (by omega)

include hd ha in
theorem waitRune_ascii (n : Nat) : ∀ b : Bufio σ, (∀ x ∈ b.data, x < 0x80) → b.data.length ≤ d →
    (∀ x ∈ (Bufio.waitRune io size n b).data, x < 0x80) ∧ (Bufio.waitRune io size n b).data.length ≤ d := by
  induction n with
  | zero => intro b h1 h2; exact ⟨h1, h2⟩
  | succ n ih =>
    intro b h1 h2
    unfold Bufio.waitRune
    split
    · rename_i hc
      refine ih _ (fillLoop_ascii ha size 100 b h1) ?_
      have hf : (Bufio.fill io size b).data.length ≤ b.data.length + d := fillLoop_slow hd size 100 b
      have h0 : b.data.length = 0 := by
        have hn := hc.2.1
        revert h1 hn
        cases b.data with
        | nil => exact fun _ _ => rfl
        | cons b0 bs => intro h1 hn; rw [fullRune_ascii (h1 b0 (List.mem_cons_self ..))] at hn; cases hn
      omega
    · exact ⟨h1, h2⟩

end

/-- The buffer holds ASCII, less than one delivery, and at most one byte for each rune has gone through it. -/
def Ascii {σ : Type} (d size : Nat) (s : Bufio (σ × Nat) × Nat) : Prop :=
  (∀ x ∈ s.1.data, x < 0x80) ∧ s.1.data.length ≤ size ∧ s.1.data.length ≤ d - 1 ∧ gone s.1 ≤ s.2

theorem ascii_step {σ : Type} {io : IOReader σ} {d : Nat} (hd : ∀ n s, (io.read n s).1.length ≤ d)
    (ha : ∀ n s, ∀ x ∈ (io.read n s).1, x < 0x80) (size : Nat) :
    ∀ s, Ascii d size s → Ascii d size ((counting (bufferedReader (metered io) size)).readRune s).2 := by
  rintro ⟨b, m⟩ ⟨h1, h2, h3, h4⟩
  simp only at h1 h2 h3 h4
  obtain ⟨w1, w2⟩ := waitRune_ascii (io := metered io) (fun n s => hd n s.1) (fun n s => ha n s.1) size 5 b h1 (by omega)
  obtain ⟨w3, w4⟩ := waitRune_meter io size 5 b h2
  show (∀ x ∈ (Bufio.readRune (metered io) size b).2.data, x < 0x80) ∧
    (Bufio.readRune (metered io) size b).2.data.length ≤ size ∧
    (Bufio.readRune (metered io) size b).2.data.length ≤ d - 1 ∧
    gone (Bufio.readRune (metered io) size b).2 ≤ ((m + 1 : Nat) : Int)
  unfold Bufio.readRune
  generalize Bufio.waitRune (metered io) size 5 b = w at *
  obtain ⟨src, data, err⟩ := w
  cases data with
  | nil =>
    refine ⟨w1, w3, Nat.zero_le _, ?_⟩
    unfold gone at w4 h4 ⊢
    simp only at *
    omega
  | cons b0 bs =>
    have h0 : b0 < 0x80 := w1 b0 (List.mem_cons_self ..)
    have e : (Utf8.decodeRune b0 bs).2 = bs := by
      have : Utf8.lengthOf b0 = 1 := if_pos h0
      simp only [Utf8.decodeRune, this]
    simp only [e]
    simp only [List.length_cons] at w2 w3
    refine ⟨fun x hx => w1 x (List.mem_cons_of_mem _ hx), by omega, by omega, ?_⟩
    unfold gone at w4 h4 ⊢
    simp only [List.length_cons] at *
    omega

theorem ascii_start {σ : Type} (d size : Nat) (s : σ) : Ascii d size ({ src := (s, 0) }, 0) :=
  ⟨fun _ hx => absurd hx (List.not_mem_nil), Nat.zero_le _, Nat.zero_le _, Int.le_refl _⟩

/-- C84: `Parse` asks its source only when the buffer holds no rune.  From a source that delivers ASCII, at most `d` bytes at a
time, it has taken at most `d - 1` bytes beyond the runes that it has read; byte by byte, none.  (`σ` is the type of the
states that can be reached, so that the conditions for all of them are no loss.) -/
theorem ascii_source_taken {σ : Type} (io : IOReader σ) {d : Nat} (hd : ∀ n s, (io.read n s).1.length ≤ d)
    (ha : ∀ n s, ∀ x ∈ (io.read n s).1, x < 0x80) (s : σ) (size : Nat) {fuel left n : Nat} {options : List ParseOpt}
    (h : runesRead (bufferedReader io size) fuel { src := s } left options = some n) :
    ∃ b, readerAfter (bufferedReader (metered io) size) fuel { src := (s, 0) } left options = some b ∧
      b.src.2 ≤ n + (d - 1) := by
  obtain ⟨b, hc, hb⟩ := metered_run io s size h
  have := reader_keeps (counting (bufferedReader (metered io) size)) (ascii_step hd ha size) (ascii_start d size s) hc
  obtain ⟨_, _, h3, h4⟩ := this
  refine ⟨b, hb, ?_⟩
  unfold gone at h4
  simp only at h3 h4
  omega

/-- A text that is refused at its first rune: one rune of 31 has been read, four bytes have been taken, three of them are in
the buffer. -/
example : runesRead (bufferedReader (pieces (fun n _ => n) .eof) 4) 1 { src := 125 :: List.replicate 30 59 } 2 = some 1 ∧
    (readerAfter (bufferedReader (metered (pieces (fun n _ => n) .eof)) 4) 1
      { src := (125 :: List.replicate 30 59, 0) } 2).map (fun b => (b.src.2, b.data)) = some (4, [59, 59, 59]) := by
  decide +kernel

/-- A source that delivers byte by byte. -/
example : (∀ n s, ((pieces (fun _ _ => 1) .eof).read n s).1.length ≤ 1) ∧
    runesRead (bufferedReader (pieces (fun _ _ => 1) .eof) 4096) 1 { src := 125 :: List.replicate 30 59 } 2 = some 1 ∧
    (readerAfter (bufferedReader (metered (pieces (fun _ _ => 1) .eof)) 4096) 1
      { src := (125 :: List.replicate 30 59, 0) } 2).map (fun b => (b.src.2, b.data)) = some (1, []) := by
  refine ⟨fun n s => ?_, by decide +kernel, by decide +kernel⟩
  show (if s = [] then (([], some IOErr.eof, []) : List Nat × Option IOErr × List Nat)
    else (s.take (min n 1), none, s.drop (min n 1))).1.length ≤ 1
  split
  · exact Nat.zero_le _
  · simp only [List.length_take]; omega

/-- A terminal: each read gives the next key. -/
def keys : IOReader (List (Fin 128)) where
  read
    | 0, s => ([], none, s)
    | _ + 1, [] => ([], some .eof, [])
    | _ + 1, k :: s => ([k.val], none, s)
  fits n s := by
    cases n with
    | zero => exact Nat.le_refl _
    | succ n =>
      cases s with
      | nil => exact Nat.zero_le _
      | cons k s => exact Nat.succ_le_succ (Nat.zero_le n)

/-- From a terminal no key is taken beyond the runes that are read. -/
theorem keys_taken (s : List (Fin 128)) (size : Nat) {fuel left n : Nat} {options : List ParseOpt}
    (h : runesRead (bufferedReader keys size) fuel { src := s } left options = some n) :
    ∃ b, readerAfter (bufferedReader (metered keys) size) fuel { src := (s, 0) } left options = some b ∧ b.src.2 ≤ n := by
  refine ascii_source_taken keys (d := 1) (fun n s => ?_) (fun n s x hx => ?_) s size h
  · cases n with
    | zero => exact Nat.zero_le _
    | succ n => cases s with
      | nil => exact Nat.zero_le _
      | cons k s => exact Nat.le_refl _
  · cases n with
    | zero => exact absurd hx List.not_mem_nil
    | succ n => cases s with
      | nil => exact absurd hx List.not_mem_nil
      | cons k s => exact (List.mem_singleton.mp hx) ▸ k.isLt

example : runesRead (bufferedReader keys 4096) 1 { src := [125, 59, 59] } 2 = some 1 ∧
    (readerAfter (bufferedReader (metered keys) 4096) 1 { src := ([125, 59, 59], 0) } 2).map (·.src) =
      some ([59, 59], 1) := by decide +kernel

example : readerAfter textReader 1 c!"};;" 2 = some c!";;" := by decide +kernel

end Verif.Props
