import Verif.Props.Taken

/-!
# An accepted source has been taken to its end (C81, C84)
-/

set_option backward.isDefEq.respectTransparency false
set_option backward.dsimp.instances true

namespace Verif.Props
open Spec

section
variable {σ : Type} {io : IOReader σ}

/-- `rest` is still to come from the source. -/
def StillToCome (io : IOReader σ) (s : σ) (rest : List Nat) : Prop :=
  (∃ N k, k < 100 ∧ DeliversIn io N k s [rest]) ∨ rest = [] ∧ Failing io s

/-- What has been delivered and what is still to come are `total` bytes. -/
def Adds (io : IOReader σ) (total : Nat) (b : Bufio (σ × Nat)) : Prop :=
  ∃ rest, StillToCome io b.src.1 rest ∧ b.src.2 + rest.length = total

theorem failing_of_nil {N k : Nat} {s : σ} (h : DeliversIn io N k s []) : Failing io s := by
  cases N <;> exact h

theorem fillLoop_adds (size total n : Nat) : ∀ b : Bufio (σ × Nat), b.data.length < size → Adds io total b →
    Adds io total (Bufio.fillLoop (metered io) size n b) := by
  induction n with
  | zero => intro b _ h; exact h
  | succ n ih =>
    rintro b hl ⟨rest, h, hs⟩
    unfold Bufio.fillLoop
    simp only [metered]
    rcases h with ⟨N, k, hk, h⟩ | ⟨rfl, E, hE, hf⟩
    · cases N with
      | zero => exact False.elim h
      | succ N =>
        have := h (size - b.data.length) (by omega)
        revert this
        obtain ⟨ds, e, s'⟩ := io.read (size - b.data.length) b.src.1
        cases e with
        | some e =>
          rintro ⟨rfl, h'⟩
          exact ⟨[], .inr ⟨rfl, failing_of_nil h'⟩, hs⟩
        | none =>
          cases ds with
          | nil =>
            rintro ⟨hk, h⟩
            simp only [List.length_nil, Nat.lt_irrefl, gt_iff_lt, if_false]
            exact ih _ (by simpa using hl) ⟨rest, .inl ⟨N, k + 1, hk, h⟩, hs⟩
          | cons d ds =>
            rintro ⟨bs', rfl, h'⟩
            simp only [List.length_cons, gt_iff_lt, Nat.zero_lt_succ, if_true]
            refine ⟨bs', .inl ⟨N, 0, by omega, h'⟩, ?_⟩
            rw [List.length_append, List.length_cons] at hs
            show b.src.2 + (ds.length + 1) + bs'.length = total
            omega
    · have := hf _ hE (size - b.data.length)
      revert this
      obtain ⟨ds, e, s'⟩ := io.read (size - b.data.length) b.src.1
      rintro ⟨h1, h2, h3⟩
      cases e with
      | some e =>
        simp only at h1
        subst h1
        exact ⟨[], .inr ⟨rfl, E, h3, hf⟩, hs⟩
      | none => exact absurd rfl h2

theorem waitRune_adds (size total n : Nat) : ∀ b : Bufio (σ × Nat), Adds io total b →
    Adds io total (Bufio.waitRune (metered io) size n b) := by
  induction n with
  | zero => intro b h; exact h
  | succ n ih =>
    intro b h
    unfold Bufio.waitRune
    split
    · rename_i hc
      exact ih _ (fillLoop_adds size total 100 b hc.2.2.2 h)
    · exact h

theorem readRune_adds (size total : Nat) (b : Bufio (σ × Nat)) (h : Adds io total b) :
    Adds io total (Bufio.readRune (metered io) size b).2 := by
  have h := waitRune_adds size total 5 b h
  unfold Bufio.readRune
  generalize Bufio.waitRune (metered io) size 5 b = w at *
  obtain ⟨src, data, err⟩ := w
  cases data with
  | nil => exact h
  | cons b0 bs => exact h

/-- As long as there are bytes to come, a hundred reads are enough for one of them. -/
theorem fillLoop_gets {size : Nat} {rest : List Nat} (hr : rest ≠ []) (n : Nat) : ∀ (b : Bufio σ) (N k : Nat),
    b.data.length < size → k < 100 → 100 ≤ k + n → DeliversIn io N k b.src [rest] →
    (Bufio.fillLoop io size n b).data ≠ [] := by
  induction n with
  | zero => intro b N k _ h1 h2; omega
  | succ n ih =>
    intro b N k hl h1 h2 h
    cases N with
    | zero => exact False.elim h
    | succ N =>
      have := h (size - b.data.length) (by omega)
      unfold Bufio.fillLoop
      revert this
      obtain ⟨ds, e, s'⟩ := io.read (size - b.data.length) b.src
      cases e with
      | some e =>
        rintro ⟨rfl, h⟩
        exact fun e => hr (List.append_eq_nil_iff.1 e).2
      | none =>
        cases ds with
        | nil =>
          rintro ⟨hk, h⟩
          simp only [List.length_nil, Nat.lt_irrefl, gt_iff_lt, if_false]
          exact ih _ N (k + 1) (by simpa using hl) hk (by omega) h
        | cons d ds =>
          rintro ⟨bs', rfl, h⟩
          simp only [List.length_cons, gt_iff_lt, Nat.zero_lt_succ, if_true]
          exact fun e => List.cons_ne_nil _ _ (List.append_eq_nil_iff.1 e).2

/-- A new buffer on a source that has bytes gives a rune. -/
theorem nothing_to_come {size : Nat} (h0 : 0 < size) {s : σ} {rest : List Nat}
    (h : Gives (bufferedReader io size) { src := s } []) (hs : StillToCome io s rest) : rest = [] := by
  rcases hs with ⟨N, k, hk, hs⟩ | ⟨rfl, _⟩
  · by_cases hr : rest = []
    · exact hr
    exfalso
    have h1 := h.nil.1
    change (Bufio.readRune io size { src := s }).1 = none at h1
    have hf : (Bufio.fill io size { src := s }).data ≠ [] :=
      fillLoop_gets hr 100 { src := s } N k h0 hk (by omega) hs
    have hw : (Bufio.waitRune io size 5 { src := s }).data ≠ [] := by
      unfold Bufio.waitRune
      rw [if_pos ⟨by simp, rfl, rfl, by simpa using h0⟩]
      obtain ⟨more, hm⟩ := waitRune_keeps io size 4 (Bufio.fill io size { src := s })
      rw [hm]
      exact fun e => hf (List.append_eq_nil_iff.1 e).1
    revert h1 hw
    unfold Bufio.readRune
    generalize Bufio.waitRune io size 5 { src := s } = w
    obtain ⟨src, data, err⟩ := w
    cases data with
    | nil => exact fun _ h => absurd rfl h
    | cons b0 bs => intro h; cases h
  · rfl

/-- C81 with the meter of C84: when a text is accepted, all its bytes have been taken from the source and the buffer is empty,
however they arrive.  Missing as in C81: NUL, and runs in which a group failed and the parser went on. -/
theorem accepted_taken_partial {s : σ} {bytes : List Nat} (hd : Delivers io s [bytes]) {size : Nat} (h4 : 4 ≤ size)
    (hn : NulFree (Utf8.decode bytes)) {fuel : Nat} {options : List ParseOpt} {p : Proto}
    (hp : parse fuel (Utf8.decode bytes) options = .ok p)
    (hc : NoGroup (Utf8.decode bytes) ∨ RunsCalmly fuel options (Utf8.decode bytes)) :
    ∃ b, readerAfter (bufferedReader (metered io) size) fuel { src := (s, 0) } (Utf8.decode bytes).length options = some b ∧
      b.data = [] ∧ b.src.2 = bytes.length := by
  obtain ⟨b, hb, he⟩ := reader_drained_partial _ _ hn (gives_bufio h4 hd) hp hc
  obtain ⟨h1, h2⟩ := gives_nil_source he
  obtain ⟨b', hb', c, e⟩ := readers_related _ (bufferedReader (metered io) size)
    (H := fun b b' => ∃ c, b' = { src := (b.src, c), data := b.data, err := b.err })
    (by
      rintro b b' ⟨c, e⟩
      obtain ⟨c', hc⟩ := readRune_same io size b c
      rw [← e] at hc
      exact ⟨(congrArg (fun x => x.1.getD eof) hc).symm, c', congrArg Prod.snd hc⟩)
    (r' := { src := (s, 0) }) ⟨0, rfl⟩ hb
  obtain ⟨N, hN⟩ := hd
  obtain ⟨rest, hr, hs⟩ := reader_keeps (bufferedReader (metered io) size) (I := Adds io bytes.length)
    (readRune_adds size bytes.length) ⟨bytes, .inl ⟨N, 0, by omega, hN⟩, Nat.zero_add _⟩ hb'
  have h3 : rest = [] := by
    rw [e] at hr
    exact nothing_to_come (by omega) h2 hr
  subst h3
  exact ⟨b', hb', by rw [e]; exact h1, hs⟩

end

/-- C84, for a text: what a call leaves is the text without the runes that it has read. -/
theorem text_left_exact (src : Str) {fuel left n : Nat} {options : List ParseOpt}
    (h : runesRead textReader fuel src left options = some n) :
    readerAfter textReader fuel src left options = some (src.drop n) := by
  unfold runesRead at h
  obtain ⟨⟨r, m⟩, hr, rfl⟩ := Option.map_eq_some_iff.mp h
  have h1 : r = src.drop m := by
    refine reader_keeps (counting textReader) (I := fun s => s.1 = src.drop s.2) ?_ rfl hr
    rintro ⟨r, m⟩ h
    simp only at h
    subst h
    show (textReader.readRune (src.drop m)).2 = src.drop (m + 1)
    rw [← List.drop_drop (i := 1) (j := m)]
    cases src.drop m <;> rfl
  obtain ⟨r', hr', e⟩ := readers_related _ textReader (H := fun s s' => s.1 = s')
    (by rintro ⟨b, m⟩ _ rfl; exact ⟨rfl, rfl⟩) (r' := src) rfl hr
  rw [hr', ← e, h1]

/-- C81: no text is accepted before all of it has been read. -/
theorem accepted_read_partial {src : Str} (hn : NulFree src) {fuel n : Nat} {options : List ParseOpt} {p : Proto}
    (hp : parse fuel src options = .ok p) (hc : NoGroup src ∨ RunsCalmly fuel options src)
    (h : runesRead textReader fuel src src.length options = some n) : src.length ≤ n := by
  obtain ⟨r, hr, he⟩ := reader_drained_partial textReader src hn (Verif.Spec.gives_text src) hp hc
  rw [text_left_exact src h] at hr
  have e : src.drop n = r := Option.some.inj hr
  have h0 : src.drop n = [] := by
    rw [e]
    cases r with
    | nil => rfl
    | cons c t => have := he.nil.1; cases this
  exact List.drop_eq_nil_iff.mp h0

/-- The file of `Props/Machine.lean`, in whatever pieces. -/
example (g : Nat → List Nat → Nat) (hg : ∀ n s, 0 < n → s ≠ [] → 0 < g n s) (last : IOErr) :
    ∃ b, readerAfter (bufferedReader (metered (pieces g last)) 16) 100 { src := (encode rpcFile, 0) } rpcFile.length [] =
      some b ∧ b.data = [] ∧ b.src.2 = (encode rpcFile).length := by
  obtain ⟨p, hp⟩ := rpcFile_ok
  have := accepted_taken_partial (pieces_delivers g hg last (encode rpcFile)) (size := 16) (by omega) (fuel := 100)
    (options := []) (p := p)
  rw [decode_encode] at this
  exact this rpcFile_nul hp (.inl rpcFile_group)

/-- The end of the input is read again each time that it is looked at. -/
example : (match parse 2 c!";" with | .ok _ => true | _ => false) = true ∧ runesRead textReader 2 c!";" 1 = some 7 := by
  decide +kernel

example : runesRead textReader 1 c!"};;" 2 = some 1 ∧ readerAfter textReader 1 c!"};;" 2 = some c!";;" := by decide +kernel

end Verif.Props
