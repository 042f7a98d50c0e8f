import Verif.Props.Taken

/-!
# What sequences of calls read (C83, C84)
-/

set_option backward.isDefEq.respectTransparency false
set_option backward.dsimp.instances true

namespace Verif.Props
open Spec

variable {ρ ρ' : Type}

/-- The state behind the calls, if all of them return; an error does not stop the sequence. -/
def callsAfter {σ : Type} (run : Request → M σ Err Ret) : List Request → σ → Option σ
  | [], s => some s
  | c :: cs, s =>
    match run c s with
    | .ok _ s' => callsAfter run cs s'
    | .err _ s' => callsAfter run cs s'
    | .halt _ => none

/-- The reader of a parser behind calls of its exported methods. -/
def readerAfterCalls (rd : RuneReader ρ) (cfg : Cfg) (cs : List Request) (r : ρ) (left : Nat) (filename : Str) :
    Option ρ :=
  letI : Source ρ := ⟨rd⟩
  (callsAfter (Request.machine cfg) cs (Machine.new r left filename)).map (·.scanner.reader)

theorem calls_gone [Source ρ] [Source ρ'] [Linked ρ ρ'] (cfg : Cfg) (cs : List Request) :
    ∀ (k k' : Machine ρ), Linked.Gone ρ' k.scanner.reader → callsAfter (Request.machine cfg) cs k = some k' →
      Linked.Gone ρ' k'.scanner.reader := by
  induction cs with
  | nil => intro k k' h e; exact Option.some.inj e ▸ h
  | cons c cs ih =>
    intro k k' h e
    have := (par_request (ρ := ρ) (ρ' := ρ') cfg c k).1 h
    unfold callsAfter at e
    revert this
    revert e
    cases c.machine cfg k with
    | ok a k1 => intro e h1; exact ih _ _ h1 e
    | err a k1 => intro e h1; exact ih _ _ h1 e
    | halt _ => intro e; cases e

theorem calls_par [Source ρ] [Source ρ'] [Linked ρ ρ'] (cfg : Cfg) (cs : List Request) :
    ∀ (k k' : Machine ρ) (r : ρ'), Linked.Link k.scanner.reader r → callsAfter (Request.machine cfg) cs k = some k' →
      Linked.Gone ρ' k'.scanner.reader ∨
      answers (Request.machine cfg) cs (k.swap r) = answers (Request.machine cfg) cs k ∧
        ∃ r', callsAfter (Request.machine cfg) cs (k.swap r) = some (k'.swap r') ∧ Linked.Link k'.scanner.reader r' := by
  induction cs with
  | nil => intro k k' r h e; obtain rfl := Option.some.inj e; exact .inr ⟨rfl, r, rfl, h⟩
  | cons c cs ih =>
    intro k k' r h e
    have := (par_request (ρ := ρ) (ρ' := ρ') cfg c k).2 r h
    unfold callsAfter at e
    unfold callsAfter answers
    revert this
    revert e
    cases c.machine cfg k with
    | ok a k1 =>
      rintro e (g | g)
      · exact .inl (calls_gone cfg cs _ _ g e)
      revert g
      cases c.machine cfg (k.swap r) with
      | ok b k2 =>
        rintro ⟨rfl, s, rfl, hs⟩
        exact (ih _ _ _ hs e).imp id fun ⟨h1, h2⟩ => ⟨congrArg _ h1, h2⟩
      | err e k2 => exact False.elim
      | halt h => exact False.elim
    | err a k1 =>
      rintro e (g | g)
      · exact .inl (calls_gone cfg cs _ _ g e)
      revert g
      cases c.machine cfg (k.swap r) with
      | ok b k2 => exact False.elim
      | err e k2 =>
        rintro ⟨rfl, s, rfl, hs⟩
        exact (ih _ _ _ hs e).imp id fun ⟨h1, h2⟩ => ⟨congrArg _ h1, h2⟩
      | halt h => exact False.elim
    | halt _ => intro e; cases e

/-- C84: whatever reading keeps is kept by calls of the exported methods. -/
theorem calls_keep (rd : RuneReader ρ) {I : ρ → Prop} (hI : ∀ s, I s → I (rd.readRune s).2) {r r' : ρ} (h : I r)
    {cfg : Cfg} {cs : List Request} {left : Nat} {filename : Str}
    (hr : readerAfterCalls rd cfg cs r left filename = some r') : I r' := by
  letI : Source ρ := ⟨rd⟩
  letI : Linked ρ ρ := { Link := fun _ _ => False, Gone := I, step := fun _ _ h => h.elim, gone := hI }
  unfold readerAfterCalls at hr
  obtain ⟨k, hk, rfl⟩ := Option.map_eq_some_iff.mp hr
  exact calls_gone (ρ' := ρ) cfg cs _ _ h hk

/-- Relations under which readers give the same runes are kept too. -/
theorem calls_related (rd : RuneReader ρ) (rd' : RuneReader ρ') {H : ρ → ρ' → Prop}
    (hs : ∀ s s', H s s' → (rd.readRune s).1.getD eof = (rd'.readRune s').1.getD eof ∧
      H (rd.readRune s).2 (rd'.readRune s').2)
    {r s : ρ} {r' : ρ'} (h : H r r') {cfg : Cfg} {cs : List Request} {left : Nat} {filename : Str}
    (hr : readerAfterCalls rd cfg cs r left filename = some s) :
    ∃ s', readerAfterCalls rd' cfg cs r' left filename = some s' ∧ H s s' := by
  letI : Source ρ := ⟨rd⟩
  letI : Source ρ' := ⟨rd'⟩
  letI : Linked ρ ρ' := { Link := H, Gone := fun _ => False, step := fun s s' h => .inr (hs s s' h),
                          gone := fun _ h => h }
  unfold readerAfterCalls at hr ⊢
  obtain ⟨k, hk, rfl⟩ := Option.map_eq_some_iff.mp hr
  obtain g | ⟨_, s', e, hs'⟩ := calls_par (ρ := ρ) (ρ' := ρ') cfg cs _ _ r' h hk
  · exact False.elim g
  · exact ⟨s', Option.map_eq_some_iff.mpr ⟨_, e, rfl⟩, hs'⟩

/-- How many runes calls have read. -/
def callsRead (rd : RuneReader ρ) (cfg : Cfg) (cs : List Request) (r : ρ) (left : Nat) (filename : Str) : Option Nat :=
  (readerAfterCalls (counting rd) cfg cs (r, 0) left filename).map Prod.snd

/-- C83, for all sequences of calls of the exported methods, failed ones included: what they return depends only on the runes
that they have read. -/
theorem calls_unread_irrelevant (rd : RuneReader ρ) (rd' : RuneReader ρ') {r : ρ} {r' : ρ'} {cfg : Cfg}
    {cs : List Request} {left n : Nat} {filename : Str} (h : callsRead rd cfg cs r left filename = some n)
    (ha : AgreeFor rd rd' n r r') :
    answersReader rd' cfg cs r' left filename = answersReader rd cfg cs r left filename ∧
      callsRead rd' cfg cs r' left filename = some n := by
  rw [calls_alike _ _ (counting_same rd r), calls_alike _ _ (counting_same rd' r')]
  letI : Source (ρ × Nat) := ⟨counting rd⟩
  letI : Source (ρ' × Nat) := ⟨counting rd'⟩
  letI : Linked (ρ × Nat) (ρ' × Nat) := linkedFor rd rd' n
  unfold callsRead readerAfterCalls at h ⊢
  obtain ⟨s, hr, hn⟩ := Option.map_eq_some_iff.mp h
  obtain ⟨k, hk, rfl⟩ := Option.map_eq_some_iff.mp hr
  have := calls_par (ρ := ρ × Nat) (ρ' := ρ' × Nat) cfg cs (Machine.new (r, 0) left filename) k (r', 0)
    ⟨rfl, Nat.zero_le _, ha⟩ hk
  obtain g | ⟨ha, s', e, hs⟩ := this
  · exact absurd (show n < k.scanner.reader.2 from g) (by omega)
  · exact ⟨ha, Option.map_eq_some_iff.mpr ⟨_, Option.map_eq_some_iff.mpr ⟨_, e, rfl⟩, hs.1.trans hn⟩⟩

/-- So what stands behind the part of a text that has been read can be anything. -/
theorem calls_rest_irrelevant (t u v : Str) {cfg : Cfg} {cs : List Request} {left n : Nat} {filename : Str}
    (h : callsRead textReader cfg cs (t ++ u) left filename = some n) (hn : n ≤ t.length) :
    answersReader textReader cfg cs (t ++ v) left filename = answersReader textReader cfg cs (t ++ u) left filename :=
  (calls_unread_irrelevant _ _ h (agree_texts t u v n hn)).1

/-- C84, for all sequences of calls of the exported methods. -/
theorem calls_source_taken {σ : Type} (io : IOReader σ) (s : σ) (size : Nat) {cfg : Cfg} {cs : List Request}
    {left n : Nat} {filename : Str}
    (h : callsRead (bufferedReader io size) cfg cs { src := s } left filename = some n) :
    ∃ b, readerAfterCalls (bufferedReader (metered io) size) cfg cs { src := (s, 0) } left filename = some b ∧
      b.data.length ≤ size ∧ b.data.length ≤ b.src.2 ∧ b.src.2 ≤ 4 * n + b.data.length := by
  unfold callsRead at h
  obtain ⟨⟨b, m⟩, hr, rfl⟩ := Option.map_eq_some_iff.mp h
  obtain ⟨b', hb, _, h1, h2, h3⟩ := calls_related _ (bufferedReader (metered io) size) (meter_step io size)
    (r' := { src := (s, 0) }) (meter_start s size) hr
  refine ⟨b', hb, h1, ?_, ?_⟩
  · unfold gone at h2; omega
  · unfold gone at h3; simp only at h3 ⊢; omega

/-- C84, for sequences of calls on a source that delivers at most `d` bytes at a time. -/
theorem calls_slow_source_taken {σ : Type} (io : IOReader σ) {d : Nat} (hd : ∀ n s, (io.read n s).1.length ≤ d) (s : σ)
    (size : Nat) {cfg : Cfg} {cs : List Request} {left n : Nat} {filename : Str}
    (h : callsRead (bufferedReader io size) cfg cs { src := s } left filename = some n) :
    ∃ b, readerAfterCalls (bufferedReader (metered io) size) cfg cs { src := (s, 0) } left filename = some b ∧
      b.src.2 ≤ 4 * n + (d + 2) := by
  obtain ⟨b, hb, _, _, h3⟩ := calls_source_taken io s size h
  have := calls_keep (bufferedReader (metered io) size) (I := fun b => b.data.length ≤ d + 2)
    (fun b => readRune_slow (io := metered io) (fun n s => hd n s.1) size b) (Nat.zero_le _) hb
  exact ⟨b, hb, by have : b.data.length ≤ d + 2 := this; omega⟩

/-- Counting and metering do not change what calls read. -/
theorem metered_calls {σ : Type} (io : IOReader σ) (s : σ) (size : Nat) {cfg : Cfg} {cs : List Request}
    {left n : Nat} {filename : Str}
    (h : callsRead (bufferedReader io size) cfg cs { src := s } left filename = some n) :
    ∃ b, readerAfterCalls (counting (bufferedReader (metered io) size)) cfg cs ({ src := (s, 0) }, 0) left filename =
        some (b, n) ∧
      readerAfterCalls (bufferedReader (metered io) size) cfg cs { src := (s, 0) } left filename = some b := by
  unfold callsRead at h
  obtain ⟨⟨b, m⟩, hr, rfl⟩ := Option.map_eq_some_iff.mp h
  obtain ⟨⟨b', m'⟩, hb, e, _⟩ := calls_related _ (counting (bufferedReader (metered io) size))
    (H := fun s s' => s'.2 = s.2 ∧ ∃ c, s'.1 = { src := (s.1.src, c), data := s.1.data, err := s.1.err })
    (by
      rintro ⟨b, m⟩ ⟨b', m'⟩ ⟨e, c, e'⟩
      simp only at e e'
      obtain ⟨c', hc⟩ := readRune_same io size b c
      rw [← e'] at hc
      exact ⟨(congrArg (fun x => x.1.getD eof) hc).symm, congrArg (· + 1) e, c', congrArg Prod.snd hc⟩)
    (r' := ({ src := (s, 0) }, 0)) ⟨rfl, 0, rfl⟩ hr
  simp only at e
  subst e
  obtain ⟨b'', hb', e⟩ := calls_related _ (bufferedReader (metered io) size) (H := fun s s' => s.1 = s')
    (by rintro ⟨b, m⟩ _ rfl; exact ⟨rfl, rfl⟩) (r' := { src := (s, 0) }) rfl hb
  simp only at e
  subst e
  exact ⟨b', hb, hb'⟩

/-- C84, for sequences of calls on a source that delivers ASCII: byte by byte, nothing is taken beyond the runes that the
calls have read. -/
theorem calls_ascii_source_taken {σ : Type} (io : IOReader σ) {d : Nat} (hd : ∀ n s, (io.read n s).1.length ≤ d)
    (ha : ∀ n s, ∀ x ∈ (io.read n s).1, x < 0x80) (s : σ) (size : Nat) {cfg : Cfg} {cs : List Request} {left n : Nat}
    {filename : Str} (h : callsRead (bufferedReader io size) cfg cs { src := s } left filename = some n) :
    ∃ b, readerAfterCalls (bufferedReader (metered io) size) cfg cs { src := (s, 0) } left filename = some b ∧
      b.src.2 ≤ n + (d - 1) := by
  obtain ⟨b, hc, hb⟩ := metered_calls io s size h
  have := calls_keep (counting (bufferedReader (metered io) size)) (ascii_step hd ha size) (ascii_start d size s) hc
  obtain ⟨_, _, h3, h4⟩ := this
  refine ⟨b, hb, ?_⟩
  unfold gone at h4
  simp only at h3 h4
  omega

/-- C84, for a text: what calls leave is the text without the runes that they have read. -/
theorem calls_left_exact (src : Str) {cfg : Cfg} {cs : List Request} {left n : Nat} {filename : Str}
    (h : callsRead textReader cfg cs src left filename = some n) :
    readerAfterCalls textReader cfg cs src left filename = some (src.drop n) := by
  unfold callsRead at h
  obtain ⟨⟨r, m⟩, hr, rfl⟩ := Option.map_eq_some_iff.mp h
  have h1 : r = src.drop m := by
    refine calls_keep (counting textReader) (I := fun s => s.1 = src.drop s.2) ?_ rfl hr
    rintro ⟨r, m⟩ h
    simp only at h
    subst h
    show (textReader.readRune (src.drop m)).2 = src.drop (m + 1)
    rw [← List.drop_drop (i := 1) (j := m)]
    cases src.drop m <;> rfl
  obtain ⟨r', hr', e⟩ := calls_related _ textReader (H := fun s s' => s.1 = s')
    (by rintro ⟨b, m⟩ _ rfl; exact ⟨rfl, rfl⟩) (r' := src) rfl hr
  rw [hr', ← e, h1]

/-- The first call fails, the second one reads to the semicolon; nothing behind it has been read. -/
example (v : Str) :
    (answersReader textReader { permissive := true, bodyIncludingComments := false, fuel := 1 } [.package, .package]
      (c!"; package a;" ++ v) 12 []).map (fun
        | .ok (.node (.package m)) => m.name
        | .error _ => c!"error"
        | _ => c!"other") = [c!"error", c!"a"] := by
  rw [calls_rest_irrelevant c!"; package a;" [] v (n := 12) (by decide +kernel) (by decide)]
  decide +kernel

example : callsRead (bufferedReader keys 16) { permissive := true, bodyIncludingComments := false, fuel := 1 }
      [.package, .isEOF] { src := [59, 10, 59, 59] } 4 [] = some 3 ∧
    (readerAfterCalls (bufferedReader (metered keys) 16) { permissive := true, bodyIncludingComments := false, fuel := 1 }
      [.package, .isEOF] { src := ([59, 10, 59, 59], 0) } 4 []).map (·.src) = some ([59], 3) := by
  decide +kernel

example : callsRead textReader { permissive := true, bodyIncludingComments := false, fuel := 1 } [.package, .isEOF]
      c!";\n;;" 4 [] = some 3 ∧
    readerAfterCalls textReader { permissive := true, bodyIncludingComments := false, fuel := 1 } [.package, .isEOF]
      c!";\n;;" 4 [] = some c!";" := by decide +kernel

end Verif.Props
