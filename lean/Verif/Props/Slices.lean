import Verif.Props.Buffer
import Verif.Model.Slices

/-!
# Slices that the lexer hands out and takes (C79)

`Lexer.Next` hands out a copy of the raw text, and `Lexer.UnNextTo` keeps the slice that it is given.
-/

set_option backward.isDefEq.respectTransparency false
set_option backward.dsimp.instances true

namespace Verif.Props
open Verif

variable {ρ : Type} {rd : RuneReader ρ} {grow : Nat → Nat}

/-! ## The memory -/

/-- The slice refers to an array, and is not longer than it. -/
structure Slice.Fits (h : Heap) (s : Slice) : Prop where
  addr : s.addr < h.length
  len : s.len ≤ (h.array s.addr).length

/-- Between two states of the memory only the array of `raw` and new arrays were written, and `raw` refers to one of
these. -/
structure Frame (h : Heap) (raw : Slice) (h' : Heap) (raw' : Slice) : Prop where
  size : h.length ≤ h'.length
  caps : ∀ a < h.length, (h'.array a).length = (h.array a).length
  same : ∀ a < h.length, a ≠ raw.addr → h'.array a = h.array a
  raw : raw'.addr = raw.addr ∨ h.length ≤ raw'.addr

theorem Frame.refl (h : Heap) (raw raw' : Slice) (e : raw'.addr = raw.addr) : Frame h raw h raw' :=
  ⟨Nat.le_refl _, fun _ _ => rfl, fun _ _ _ => rfl, .inl e⟩

theorem Frame.trans {h h' h'' : Heap} {r r' r'' : Slice} (f : Frame h r h' r') (g : Frame h' r' h'' r'') :
    Frame h r h'' r'' where
  size := Nat.le_trans f.size g.size
  caps a ha := (g.caps a (Nat.lt_of_lt_of_le ha f.size)).trans (f.caps a ha)
  same a ha hr := by
    rw [g.same a (Nat.lt_of_lt_of_le ha f.size), f.same a ha hr]
    rcases f.raw with e | e
    · rw [e]; exact hr
    · omega
  raw := by
    have := f.size
    rcases g.raw with e | e
    · rcases f.raw with e' | e'
      · exact .inl (e.trans e')
      · exact .inr (by omega)
    · exact .inr (by omega)

theorem Slice.Fits.frame {h h' : Heap} {r r' s : Slice} (f : Frame h r h' r') (hs : Slice.Fits h s) : Slice.Fits h' s :=
  ⟨Nat.lt_of_lt_of_le hs.addr f.size, by rw [f.caps _ hs.addr]; exact hs.len⟩

theorem content_frame {h h' : Heap} {r r' s : Slice} (f : Frame h r h' r') (hs : Slice.Fits h s) (hr : s.addr ≠ r.addr) :
    h'.content s = h.content s := by simp only [Heap.content, f.same _ hs.addr hr]

theorem content_length {h : Heap} {s : Slice} (hs : Slice.Fits h s) : (h.content s).length = s.len := by
  simp [Heap.content, hs.len]

theorem array_append (h : Heap) (t : Str) {a : Nat} (ha : a < h.length) : Heap.array (h ++ [t]) a = h.array a := by
  simp [Heap.array, List.getD_eq_getElem?_getD, List.getElem?_append_left ha]

theorem array_last (h : Heap) (t : Str) : Heap.array (h ++ [t]) h.length = t := by
  simp [Heap.array, List.getD_eq_getElem?_getD]

theorem array_set (h : Heap) (a : Nat) (t : Str) (b : Nat) (ha : a < h.length) :
    Heap.array (h.set a t) b = if b = a then t else h.array b := by
  simp only [Heap.array, List.getD_eq_getElem?_getD, List.getElem?_set]
  by_cases e : b = a
  · subst e; simp [ha]
  · simp [e, Ne.symm e]

theorem append_ok (grow : Nat → Nat) {h : Heap} {s : Slice} (hs : Slice.Fits h s) (r : Char) :
    (h.append grow s r).1.content (h.append grow s r).2 = h.content s ++ [r] ∧
      Slice.Fits (h.append grow s r).1 (h.append grow s r).2 ∧ Frame h s (h.append grow s r).1 (h.append grow s r).2 ∧
      (h.append grow s r).2.len = s.len + 1 := by
  unfold Heap.append
  split
  · next hl =>
    refine ⟨?_, ⟨by simpa using hs.addr, ?_⟩, ⟨by simp, ?_, ?_, .inl rfl⟩, rfl⟩
    · simp only [Heap.content, array_set _ _ _ _ hs.addr, if_true]
      rw [List.take_succ_eq_append_getElem (by simpa using hl), List.take_set, List.set_eq_of_length_le (by simp; omega)]
      simp
    · simp only [array_set _ _ _ _ hs.addr, if_true, List.length_set]; omega
    · intro a _
      rw [array_set _ _ _ _ hs.addr]
      split
      · next e => subst e; simp
      · rfl
    · intro a _ hr
      rw [array_set _ _ _ _ hs.addr, if_neg hr]
  · refine ⟨?_, ⟨by simp, ?_⟩, ⟨by simp, ?_, ?_, .inr (Nat.le_refl _)⟩, rfl⟩
    · simp only [Heap.content, array_last]
      have := content_length hs
      unfold Heap.content at this
      rw [List.take_append, this]
      simp [List.take_take, Nat.min_eq_right]
    · simp only [array_last, List.length_append, content_length hs, List.length_cons]; omega
    · intro a ha; rw [array_append _ _ ha]
    · intro a ha _; rw [array_append _ _ ha]

theorem copy_ok {h : Heap} {s raw : Slice} (hs : Slice.Fits h s) :
    (h.copy s).1.content (h.copy s).2 = h.content s ∧ Slice.Fits (h.copy s).1 (h.copy s).2 ∧
      (h.copy s).2.addr = h.length ∧ (h.copy s).1.length = h.length + 1 ∧ Frame h raw (h.copy s).1 raw ∧
      ∀ a < h.length, (h.copy s).1.array a = h.array a := by
  refine ⟨?_, ⟨by simp [Heap.copy], ?_⟩, rfl, by simp [Heap.copy], ⟨by simp [Heap.copy], ?_, ?_, .inl rfl⟩, ?_⟩
  · simp [Heap.copy, Heap.content, array_last, List.take_take]
  · simp only [Heap.copy, array_last, content_length hs]; omega
  · intro a ha; simp only [Heap.copy]; rw [array_append _ _ ha]
  · intro a ha _; simp only [Heap.copy]; rw [array_append _ _ ha]
  · intro a ha; simp only [Heap.copy]; rw [array_append _ _ ha]

/-! ## The scanner with slices shows the same -/

/-- The state with the elements of the slice in the place of the slice. -/
def view (x : Sliced ρ) : Concrete ρ := { x.base with raw := x.heap.content x.raw }

/-- What one operation does to the memory. -/
structure Step (x x' : Sliced ρ) : Prop where
  fits : Slice.Fits x'.heap x'.raw
  frame : Frame x.heap x.raw x'.heap x'.raw

theorem Step.refl {x : Sliced ρ} (h : Slice.Fits x.heap x.raw) : Step x x := ⟨h, Frame.refl _ _ _ rfl⟩

theorem Step.trans {x y z : Sliced ρ} (h : Step x y) (g : Step y z) : Step x z := ⟨g.fits, h.frame.trans g.frame⟩

theorem pop_view (x : Sliced ρ) : Concrete.pop rd (view x) =
    ((Concrete.pop rd x.base).1, { (Concrete.pop rd x.base).2 with raw := x.heap.content x.raw }) := by
  simp only [Concrete.pop, view]
  split
  · rfl
  · split <;> rfl

theorem read_view {x : Sliced ρ} (h : Slice.Fits x.heap x.raw) :
    Concrete.read rd (view x) = ((Sliced.read grow rd x).1, view (Sliced.read grow rd x).2) ∧ Step x (Sliced.read grow rd x).2 := by
  simp only [Concrete.read, Sliced.read, pop_view]
  split
  · exact ⟨rfl, h, Frame.refl _ _ _ rfl⟩
  · obtain ⟨h1, h2, h3, _⟩ := append_ok grow h (Concrete.pop rd x.base).1
    exact ⟨by simp [view, h1], h2, h3⟩

theorem unread_view (ch : Char) (x : Sliced ρ) : Concrete.unread ch (view x) = view (Sliced.unread ch x) := rfl

theorem peek_view {x : Sliced ρ} (h : Slice.Fits x.heap x.raw) :
    Concrete.peek rd (view x) = ((Sliced.peek grow rd x).1, view (Sliced.peek grow rd x).2) ∧ Step x (Sliced.peek grow rd x).2 := by
  obtain ⟨h1, h2⟩ := read_view (rd := rd) (grow := grow) h
  simp only [Concrete.peek, Sliced.peek, h1]
  split
  · refine ⟨?_, ⟨h2.fits.addr, Nat.le_trans (Nat.sub_le _ _) h2.fits.len⟩, h2.frame.trans (Frame.refl _ _ _ rfl)⟩
    have hd : (Heap.content (Sliced.read grow rd x).2.heap (Sliced.read grow rd x).2.raw).dropLast =
        Heap.content (Sliced.read grow rd x).2.heap
          { (Sliced.read grow rd x).2.raw with len := (Sliced.read grow rd x).2.raw.len - 1 } := by
      rw [List.dropLast_eq_take, content_length h2.fits]
      simp only [Heap.content, List.take_take]
      congr 1
      omega
    rw [← unread_view]
    simp only [view, hd]
  · exact ⟨rfl, h2⟩

theorem foldl_view (t : Str) : ∀ x : Sliced ρ,
    t.foldl (fun c ch => Concrete.unread ch c) (view x) = view (t.foldl (fun x ch => Sliced.unread ch x) x) ∧
      (t.foldl (fun x ch => Sliced.unread ch x) x).heap = x.heap ∧ (t.foldl (fun x ch => Sliced.unread ch x) x).raw = x.raw := by
  induction t with
  | nil => intro x; exact ⟨rfl, rfl, rfl⟩
  | cons c t ih =>
    intro x
    obtain ⟨h1, h2, h3⟩ := ih (Sliced.unread c x)
    exact ⟨by simpa only [List.foldl_cons, unread_view] using h1, h2, h3⟩

theorem unScan_view {x : Sliced ρ} (h : Slice.Fits x.heap x.raw) :
    Concrete.unScan (view x) = view (Sliced.unScan x) ∧ Step x (Sliced.unScan x) := by
  obtain ⟨h1, h2, h3⟩ := foldl_view (x.heap.content x.raw).reverse x
  refine ⟨h1, ?_, ?_⟩
  · unfold Sliced.unScan; rw [h2, h3]; exact h
  · unfold Sliced.unScan; rw [h2, h3]; exact Frame.refl _ _ _ rfl

/-- The outcomes show the same, and the memory was used as it should. -/
def SameView {α : Type} (x : Sliced ρ) : Res (Concrete ρ) Err α → Res (Sliced ρ) Err α → Prop
  | .ok a c, .ok b y => a = b ∧ c = view y ∧ Step x y
  | .err e c, .err e' y => e = e' ∧ c = view y ∧ Step x y
  | .halt h, .halt h' => h = h'
  | _, _ => False

theorem SameView.step {α : Type} {x y : Sliced ρ} (h : Step x y) {a : Res (Concrete ρ) Err α} {b : Res (Sliced ρ) Err α}
    (s : SameView y a b) : SameView x a b := by
  cases a <;> cases b <;> first | exact s | exact ⟨s.1, s.2.1, h.trans s.2.2⟩

theorem run_view {α : Type} (p : Prog α) {r : Position} {x : Sliced ρ} (h : Slice.Fits x.heap x.raw) :
    SameView x (Concrete.run rd p r (view x)) (Sliced.run grow rd p r x) := by
  induction p generalizing r x with
  | ret a => exact ⟨rfl, rfl, Step.refl h⟩
  | throw e => exact ⟨rfl, rfl, Step.refl h⟩
  | stop h => rfl
  | read k ih =>
    obtain ⟨e, st⟩ := read_view (rd := rd) (grow := grow) h
    simp only [Concrete.run, Sliced.run, e]
    exact (ih _ st.fits).step st
  | peek k ih =>
    obtain ⟨e, st⟩ := peek_view (rd := rd) (grow := grow) h
    simp only [Concrete.run, Sliced.run, e]
    exact (ih _ st.fits).step st
  | bound k ih => exact ih _ h
  | mode k ih => exact ih _ h
  | mkErr ch e k ih => exact ih _ h
  | mark k ih => exact ih h
  | record lit k ih =>
    exact SameView.step (x := x) (y := { x with base := { x.base with comments := x.base.comments ++ [(lit, r)] } })
      ⟨h, Frame.refl _ _ _ rfl⟩ (ih h)

theorem scan_view {x : Sliced ρ} (h : Slice.Fits x.heap x.raw) :
    SameView x (Concrete.scan rd (view x)) (Sliced.scan grow rd x) := by
  have hf : Slice.Fits x.heap { x.raw with len := 0 } := ⟨h.addr, Nat.zero_le _⟩
  have := run_view (rd := rd) (grow := grow) Prog.scan (r := x.base.p) (x := { x with raw := { x.raw with len := 0 } }) hf
  have e : view { x with raw := { x.raw with len := 0 } } = { view x with raw := [] } := by simp [view, Heap.content]
  rw [e] at this
  exact SameView.step (x := x) (y := { x with raw := { x.raw with len := 0 } }) ⟨hf, Frame.refl _ _ _ rfl⟩ this

/-! ## Histories -/

/-- What a client can do. -/
inductive Deed where
  /-- `s.Mode = m` -/
  | setMode (m : Mode)
  /-- `s.Scan()` and `s.LastScanRaw()`, as `Lexer.Next` does; the client keeps the slice -/
  | scan
  /-- `s.UnScan()`, as `Lexer.UnNext` does -/
  | unScan
  /-- the client makes a slice of their own -/
  | make (t : Str)
  /-- `s.SetLastScanRaw(raw)` with the `i`-th slice that the client has, as `Lexer.UnNextTo` does -/
  | give (i : Nat)

/-- A deed where texts are values: the client keeps texts. -/
def deedV (d : Deed) (s : Scanner) (held : List Str) : Seen × Scanner × List Str :=
  match d with
  | .setMode m => ((callA (.setMode m) s []).1, (callA (.setMode m) s []).2.1, held)
  | .scan => ((callA .scan s []).1, (callA .scan s []).2.1, held ++ [(callA .scan s []).2.1.raw])
  | .unScan => ((callA .unScan s []).1, (callA .unScan s []).2.1, held)
  | .make t => (.nothing, s, held ++ [t])
  | .give i =>
    match held[i]? with
    | some t => ((callA (.setRaw t) s []).1, (callA (.setRaw t) s []).2.1, held)
    | none => (.nothing, s, held)

/-- A deed as it is: the client keeps slices, which may share arrays with the scanner. -/
def deedS (grow : Nat → Nat) (rd : RuneReader ρ) (d : Deed) (x : Sliced ρ) (held : List Slice) :
    Seen × Sliced ρ × List Slice :=
  match d with
  | .setMode m => (.nothing, { x with base := { x.base with mode := m } }, held)
  | .scan =>
    match Sliced.scan grow rd x with
    | .ok o y => (.scanned o.1 o.2 (y.lastScanRaw.2.heap.content y.lastScanRaw.1) y.base.comments, y.lastScanRaw.2,
        held ++ [y.lastScanRaw.1])
    | .err e y => (.failed e, y.lastScanRaw.2, held ++ [y.lastScanRaw.1])
    | .halt h => (.stopped h, x.lastScanRaw.2, held ++ [x.lastScanRaw.1])
  | .unScan => (.pos x.unScan.base.p, x.unScan, held)
  | .make t => (.nothing, { x with heap := x.heap ++ [t] }, held ++ [{ addr := x.heap.length, len := t.length }])
  | .give i =>
    match held[i]? with
    | some r => (.nothing, x.setLastScanRaw r, held)
    | none => (.nothing, x, held)

/-- What the client sees of all deeds, and the states at the end. -/
def deedsV : List Deed → Scanner → List Str → List Seen × Scanner × List Str
  | [], s, held => ([], s, held)
  | d :: ds, s, held =>
    ((deedV d s held).1 :: (deedsV ds (deedV d s held).2.1 (deedV d s held).2.2).1,
      (deedsV ds (deedV d s held).2.1 (deedV d s held).2.2).2)

def deedsS (grow : Nat → Nat) (rd : RuneReader ρ) : List Deed → Sliced ρ → List Slice → List Seen × Sliced ρ × List Slice
  | [], x, held => ([], x, held)
  | d :: ds, x, held =>
    ((deedS grow rd d x held).1 :: (deedsS grow rd ds (deedS grow rd d x held).2.1 (deedS grow rd d x held).2.2).1,
      (deedsS grow rd ds (deedS grow rd d x held).2.1 (deedS grow rd d x held).2.2).2)

/-- The slices that are given to the scanner, in order. -/
def given : List Deed → List Nat
  | [] => []
  | .give i :: ds => i :: given ds
  | _ :: ds => given ds

/-- The memory of a client who has given away the slices `g`: what they still have is theirs alone. -/
structure Owned (g : List Nat) (x : Sliced ρ) (held : List Slice) : Prop where
  fits : Slice.Fits x.heap x.raw
  each : ∀ (i : Nat) (r : Slice), held[i]? = some r → Slice.Fits x.heap r
  apart : ∀ (i : Nat) (r : Slice), held[i]? = some r → i ∉ g → r.addr ≠ x.raw.addr
  alone : ∀ (i : Nat) (r : Slice) (j : Nat) (r' : Slice), held[i]? = some r → held[j]? = some r' → i ∉ g → i ≠ j → r.addr ≠ r'.addr

/-- What the client has is what it was. -/
def Kept (g : List Nat) (h h' : Heap) (held : List Slice) : Prop :=
  ∀ (i : Nat) (r : Slice), held[i]? = some r → i ∉ g → h'.content r = h.content r

/-- A step of the scanner. -/
theorem owned_step {g : List Nat} {x y : Sliced ρ} {held : List Slice} (o : Owned g x held) (st : Step x y) :
    Owned g y held ∧ Kept g x.heap y.heap held := by
  refine ⟨⟨st.fits, fun i r hi => (o.each i r hi).frame st.frame, ?_, o.alone⟩, ?_⟩
  · intro i r hi hg e
    rcases st.frame.raw with e' | e'
    · exact o.apart i r hi hg (e.trans e')
    · have := (o.each i r hi).addr; omega
  · intro i r hi hg
    exact content_frame st.frame (o.each i r hi) (o.apart i r hi hg)

/-- A new array, for a slice of the client. -/
theorem owned_new {g : List Nat} {x : Sliced ρ} {held : List Slice} (o : Owned g x held) (t : Str) :
    Owned g { x with heap := x.heap ++ [t] } (held ++ [{ addr := x.heap.length, len := t.length }]) ∧
      Kept g x.heap (x.heap ++ [t]) held := by
  have fr : ∀ {r : Slice}, Slice.Fits x.heap r → Slice.Fits (x.heap ++ [t]) r := fun {r} h =>
    ⟨by have := h.addr; simp; omega, by rw [array_append _ _ h.addr]; exact h.len⟩
  have split : ∀ i (r : Slice), (held ++ [{ addr := x.heap.length, len := t.length }])[i]? = some r →
      held[i]? = some r ∨ (i = held.length ∧ r = { addr := x.heap.length, len := t.length }) := by
    intro i r hi
    by_cases hl : i < held.length
    · rw [List.getElem?_append_left hl] at hi; exact .inl hi
    · rw [List.getElem?_append_right (by omega)] at hi
      have : i - held.length = 0 := by
        cases hk : i - held.length with
        | zero => rfl
        | succ k => rw [hk] at hi; simp at hi
      rw [this] at hi
      simp at hi
      exact .inr ⟨by omega, hi.symm⟩
  refine ⟨⟨fr o.fits, ?_, ?_, ?_⟩, ?_⟩
  · intro i r hi
    rcases split i r hi with hi | ⟨_, rfl⟩
    · exact fr (o.each i r hi)
    · exact ⟨by simp, by simp [array_last]⟩
  · intro i r hi hg
    rcases split i r hi with hi | ⟨_, rfl⟩
    · exact o.apart i r hi hg
    · have := o.fits.addr; simp only; omega
  · intro i r j r' hi hj hg hij
    rcases split i r hi with hi | ⟨rfl, rfl⟩
    · rcases split j r' hj with hj | ⟨_, rfl⟩
      · exact o.alone i r j r' hi hj hg hij
      · have := (o.each i r hi).addr; simp only; omega
    · rcases split j r' hj with hj | ⟨rfl, _⟩
      · have := (o.each j r' hj).addr; simp only; omega
      · exact absurd rfl hij
  · intro i r hi _
    simp only [Heap.content, array_append _ _ (o.each i r hi).addr]

theorem Kept.trans {g : List Nat} {h h' h'' : Heap} {held : List Slice} (k : Kept g h h' held) (k' : Kept g h' h'' held) :
    Kept g h h'' held := fun i r hi hg => (k' i r hi hg).trans (k i r hi hg)

/-- `LastScanRaw`. -/
theorem owned_copy {g : List Nat} {x : Sliced ρ} {held : List Slice} (o : Owned g x held) :
    Owned g x.lastScanRaw.2 (held ++ [x.lastScanRaw.1]) ∧ Kept g x.heap x.lastScanRaw.2.heap held ∧
      x.lastScanRaw.2.heap.content x.lastScanRaw.1 = x.heap.content x.raw ∧ view x.lastScanRaw.2 = view x := by
  have h := owned_new o (x.heap.content x.raw)
  rw [content_length o.fits] at h
  refine ⟨h.1, h.2, (copy_ok (raw := x.raw) o.fits).1, ?_⟩
  simp only [view, Sliced.lastScanRaw, Heap.copy, Heap.content, array_append _ _ o.fits.addr]

/-- After every deed the client has what they had, except for slices that they have given away. -/
theorem owned_deed {g : List Nat} {x : Sliced ρ} {held : List Slice} (o : Owned g x held) (d : Deed) :
    Owned (given [d] ++ g) (deedS grow rd d x held).2.1 (deedS grow rd d x held).2.2 ∧
      Kept (given [d] ++ g) x.heap (deedS grow rd d x held).2.1.heap held ∧
      ∃ more, (deedS grow rd d x held).2.2 = held ++ more := by
  cases d with
  | setMode m =>
    obtain ⟨h1, h2⟩ := owned_step o (y := { x with base := { x.base with mode := m } }) ⟨o.fits, Frame.refl _ _ _ rfl⟩
    exact ⟨h1, h2, [], by simp [deedS]⟩
  | unScan =>
    obtain ⟨h1, h2⟩ := owned_step o (unScan_view o.fits).2
    exact ⟨h1, h2, [], by simp [deedS]⟩
  | make t =>
    obtain ⟨h1, h2⟩ := owned_new o t
    exact ⟨h1, h2, _, rfl⟩
  | scan =>
    have hs := scan_view (rd := rd) (grow := grow) o.fits
    have fin : ∀ {y : Sliced ρ}, Step x y → Owned g y.lastScanRaw.2 (held ++ [y.lastScanRaw.1]) ∧
        Kept g x.heap y.lastScanRaw.2.heap held := by
      intro y st
      obtain ⟨h1, h2⟩ := owned_step o st
      obtain ⟨h3, h4, _, _⟩ := owned_copy h1
      exact ⟨h3, h2.trans h4⟩
    simp only [deedS, given, List.nil_append]
    revert hs
    cases Sliced.scan grow rd x with
    | ok a y => cases Concrete.scan rd (view x) <;> intro hs <;> first | exact hs.elim | exact ⟨(fin hs.2.2).1, (fin hs.2.2).2, _, rfl⟩
    | err e y => cases Concrete.scan rd (view x) <;> intro hs <;> first | exact hs.elim | exact ⟨(fin hs.2.2).1, (fin hs.2.2).2, _, rfl⟩
    | halt e => intro _; exact ⟨(fin (Step.refl o.fits)).1, (fin (Step.refl o.fits)).2, _, rfl⟩
  | give i =>
    simp only [deedS, given, List.singleton_append]
    have weak : ∀ {j : Nat}, j ∉ i :: g → j ∉ g ∧ j ≠ i := fun h => by
      simp only [List.mem_cons, not_or] at h; exact ⟨h.2, h.1⟩
    split
    · next r hr =>
      refine ⟨⟨o.each i r hr, o.each, ?_, ?_⟩, fun _ _ _ _ => rfl, [], by simp⟩
      · intro j r' hj hg
        exact o.alone j r' i r hj hr (weak hg).1 (weak hg).2
      · intro j r' k r'' hj hk hg hjk
        exact o.alone j r' k r'' hj hk (weak hg).1 hjk
    · exact ⟨⟨o.fits, o.each, fun j r hj hg => o.apart j r hj (weak hg).1,
        fun j r k r' hj hk hg => o.alone j r k r' hj hk (weak hg).1⟩, fun _ _ _ _ => rfl, [], by simp⟩

theorem given_cons (d : Deed) (ds : List Deed) : given (d :: ds) = given [d] ++ given ds := by
  cases d <;> rfl

theorem owned_mono {g g' : List Nat} {x : Sliced ρ} {held : List Slice} (o : Owned g x held) (h : ∀ i ∈ g, i ∈ g') :
    Owned g' x held :=
  ⟨o.fits, o.each, fun i r hi hg => o.apart i r hi fun hm => hg (h i hm),
    fun i r j r' hi hj hg => o.alone i r j r' hi hj fun hm => hg (h i hm)⟩

/-- The start. -/
theorem owned_new_scanner (r : ρ) (left : Nat) (filename : Str) : Owned [] (Sliced.new r left filename) [] :=
  ⟨⟨by simp [Sliced.new], by simp [Sliced.new]⟩, fun i r h => by simp at h, fun i r h => by simp at h,
    fun i r j r' h => by simp at h⟩

theorem owned_deeds (ds : List Deed) {g : List Nat} {x : Sliced ρ} {held : List Slice} (o : Owned g x held) :
    Owned (given ds ++ g) (deedsS grow rd ds x held).2.1 (deedsS grow rd ds x held).2.2 ∧
      Kept (given ds ++ g) x.heap (deedsS grow rd ds x held).2.1.heap held ∧
      ∃ more, (deedsS grow rd ds x held).2.2 = held ++ more := by
  induction ds generalizing g x held with
  | nil => exact ⟨o, fun _ _ _ _ => rfl, [], by simp [deedsS]⟩
  | cons d ds ih =>
    obtain ⟨h1, h2, more, h3⟩ := owned_deed (grow := grow) (rd := rd) o d
    obtain ⟨h4, h5, more', h6⟩ := ih h1
    have sub : ∀ i, i ∉ given (d :: ds) ++ g → i ∉ given [d] ++ g ∧ i ∉ given ds ++ (given [d] ++ g) := by
      intro i hi
      rw [given_cons] at hi
      simp only [List.mem_append, not_or] at hi ⊢
      exact ⟨⟨hi.1.1, hi.2⟩, hi.1.2, hi.1.1, hi.2⟩
    simp only [deedsS]
    refine ⟨owned_mono h4 ?_, ?_, more ++ more', by rw [h6, h3, List.append_assoc]⟩
    · intro i hi
      rw [given_cons]
      simp only [List.mem_append] at hi ⊢
      rcases hi with h | h | h
      · exact .inl (.inr h)
      · exact .inl (.inl h)
      · exact .inr h
    · intro i r hi hg
      rw [h5 i r (by rw [h3]; exact List.getElem?_append_left (List.getElem?_eq_some_iff.1 hi).1 ▸ hi) (sub i hg).2,
        h2 i r hi (sub i hg).1]

/-- C79: what the client has, and does not give to `UnNextTo`, stays what it is, whatever they do. -/
theorem raw_kept (grow : Nat → Nat) (rd : RuneReader ρ) (r : ρ) (left : Nat) (filename : Str) (before after : List Deed)
    (i : Nat) (s : Slice)
    (hs : (deedsS grow rd before (Sliced.new r left filename) []).2.2[i]? = some s)
    (hb : i ∉ given before) (ha : i ∉ given after) :
    (deedsS grow rd after (deedsS grow rd before (Sliced.new r left filename) []).2.1
        (deedsS grow rd before (Sliced.new r left filename) []).2.2).2.1.heap.content s =
      (deedsS grow rd before (Sliced.new r left filename) []).2.1.heap.content s := by
  have o := (owned_deeds (grow := grow) (rd := rd) before (owned_new_scanner r left filename)).1
  exact (owned_deeds after o).2.1 i s hs (by simp [hb, ha])

/-- The two clients agree. -/
structure Agree (rd : RuneReader ρ) (g : List Nat) (s : Scanner) (texts : List Str) (x : Sliced ρ) (held : List Slice) :
    Prop where
  stand : Stand rd s (view x)
  owned : Owned g x held
  size : texts.length = held.length
  values : ∀ (i : Nat) (r : Slice), held[i]? = some r → i ∉ g → texts[i]? = some (x.heap.content r)

/-- The texts of a longer list of slices. -/
theorem values_more {g : List Nat} {texts : List Str} {held : List Slice} {h h' : Heap} {r : Slice} {t : Str}
    (size : texts.length = held.length)
    (values : ∀ (i : Nat) (r : Slice), held[i]? = some r → i ∉ g → texts[i]? = some (h.content r))
    (k : Kept g h h' held) (e : h'.content r = t) :
    ∀ (i : Nat) (r' : Slice), (held ++ [r])[i]? = some r' → i ∉ g → (texts ++ [t])[i]? = some (h'.content r') := by
  intro i r' hi hg
  by_cases hl : i < held.length
  · rw [List.getElem?_append_left hl] at hi
    rw [List.getElem?_append_left (by omega), values i r' hi hg, k i r' hi hg]
  · have : i < (held ++ [r]).length := (List.getElem?_eq_some_iff.1 hi).1
    simp at this
    have : i = held.length := by omega
    subst this
    simp at hi
    subst hi
    rw [← size]
    simp [e]

theorem agree_deed {g : List Nat} {s : Scanner} {texts : List Str} {x : Sliced ρ} {held : List Slice}
    (a : Agree rd g s texts x held) (d : Deed) (hd : ∀ i, d = .give i → i ∉ g) :
    (deedV d s texts).1 = (deedS grow rd d x held).1 ∧
      Agree rd (given [d] ++ g) (deedV d s texts).2.1 (deedV d s texts).2.2 (deedS grow rd d x held).2.1
        (deedS grow rd d x held).2.2 := by
  obtain ⟨o, k, _⟩ := owned_deed (grow := grow) (rd := rd) a.owned d
  cases d with
  | setMode m =>
    have h := call_same (.setMode m) (hs := []) a.stand (fun i t q e => by simp at e)
    exact ⟨h.1, h.2.1, o, a.size, fun i r hi hg => a.values i r hi hg⟩
  | unScan =>
    have h := call_same .unScan (hs := []) a.stand (fun i t q e => by simp at e)
    have hv := unScan_view a.owned.fits
    simp only [callC, hv.1] at h
    refine ⟨h.1, h.2.1, o, a.size, fun i r hi hg => ?_⟩
    exact (a.values i r hi hg).trans (congrArg some (k i r hi hg).symm)
  | make t =>
    have hs : view (deedS grow rd (.make t) x held).2.1 = view x := by
      simp only [deedS, view, Heap.content, array_append _ _ a.owned.fits.addr]
    refine ⟨rfl, by rw [hs]; exact a.stand, o, by simp [deedV, deedS, a.size], ?_⟩
    exact values_more a.size a.values k (by simp [deedS, Heap.content, array_last])
  | scan =>
    have h := call_same .scan (hs := []) a.stand (fun i t q e => by simp at e)
    have hv := scan_view (rd := rd) (grow := grow) a.owned.fits
    have fin : ∀ {y : Sliced ρ} {s' : Scanner}, Step x y → Stand rd s' (view y) →
        Agree rd g s' (texts ++ [s'.raw]) y.lastScanRaw.2 (held ++ [y.lastScanRaw.1]) ∧
          y.lastScanRaw.2.heap.content y.lastScanRaw.1 = y.heap.content y.raw := by
      intro y s' st std
      obtain ⟨h1, h2⟩ := owned_step a.owned st
      obtain ⟨h3, h4, h5, h6⟩ := owned_copy h1
      exact ⟨⟨by rw [h6]; exact std, h3, by simp [a.size], values_more a.size a.values (h2.trans h4)
        (h5.trans std.raw.symm)⟩, h5⟩
    revert hv h
    simp only [deedV, deedS, callC, given, List.nil_append]
    cases hc : Concrete.scan rd (view x) with
    | ok b c =>
      cases Sliced.scan grow rd x with
      | ok b' y =>
        rintro ⟨h1, h2, _⟩ ⟨rfl, rfl, st⟩
        obtain ⟨f1, f2⟩ := fin st h2
        exact ⟨by rw [h1]; simp only [f2]; rfl, f1⟩
      | err => intro _ hv; exact hv.elim
      | halt => intro _ hv; exact hv.elim
    | err e c =>
      cases Sliced.scan grow rd x with
      | ok => intro _ hv; exact hv.elim
      | err e' y =>
        rintro ⟨h1, h2, _⟩ ⟨rfl, rfl, st⟩
        exact ⟨h1, (fin st h2).1⟩
      | halt => intro _ hv; exact hv.elim
    | halt e =>
      cases Sliced.scan grow rd x with
      | ok => intro _ hv; exact hv.elim
      | err => intro _ hv; exact hv.elim
      | halt e' =>
        rintro ⟨h1, h2, _⟩ hv
        exact ⟨by rw [h1, show e = e' from hv], (fin (Step.refl a.owned.fits) h2).1⟩
  | give i =>
    cases hr : held[i]? with
    | none =>
      have ht : texts[i]? = none := by
        rw [List.getElem?_eq_none_iff] at hr ⊢; have := a.size; omega
      simp only [deedS, deedV, hr, ht] at o k ⊢
      exact ⟨trivial, a.stand, o, a.size, fun j r hj hg => a.values j r hj (by simp [given] at hg; exact hg.2)⟩
    | some r =>
      have ht := a.values i r hr (hd i rfl)
      have h := call_same (.setRaw (x.heap.content r)) (hs := []) a.stand (fun i t q e => by simp at e)
      simp only [deedS, deedV, hr, ht] at o k ⊢
      exact ⟨h.1, h.2.1, o, a.size, fun j r hj hg => a.values j r hj (by simp [given] at hg; exact hg.2)⟩

theorem agree_deeds (ds : List Deed) {g : List Nat} {s : Scanner} {texts : List Str} {x : Sliced ρ} {held : List Slice}
    (a : Agree rd g s texts x held) (hd : (given ds).Nodup) (hg : ∀ i ∈ given ds, i ∉ g) :
    (deedsV ds s texts).1 = (deedsS grow rd ds x held).1 := by
  induction ds generalizing g s texts x held with
  | nil => rfl
  | cons d ds ih =>
    rw [given_cons, List.nodup_append] at hd
    have hdg : ∀ i, d = .give i → i ∉ g := by rintro i rfl; exact hg i (by simp [given])
    obtain ⟨h1, h2⟩ := agree_deed (grow := grow) a d hdg
    simp only [deedsV, deedsS]
    rw [h1, ih h2 hd.2.1 ?_]
    intro i hi hm
    rw [List.mem_append] at hm
    rcases hm with hm | hm
    · exact hd.2.2 i hm i hi rfl
    · exact hg i (by rw [given_cons]; simp [hi]) hm

/-- **C79.**  Whatever the client does, if they give no slice to `UnNextTo` twice, they see what they would see if
slices were values: `UnNextTo` puts back the text that `RawText` had when they got it. -/
theorem slices_are_values_partial (grow : Nat → Nat) (rd : RuneReader ρ) (r : ρ) (src filename : Str)
    (hg : Spec.Gives rd r src) (ds : List Deed) (hd : (given ds).Nodup) :
    (deedsS grow rd ds (Sliced.new r src.length filename) []).1 = (deedsV ds (Scanner.new src filename) []).1 := by
  refine (agree_deeds (g := []) ds ⟨?_, owned_new_scanner r src.length filename, rfl, ?_⟩ hd (by simp)).symm
  · exact ⟨⟨src, rfl, hg, rfl⟩, rfl, rfl, fun i => by simp [view, Sliced.new, Concrete.new, Scanner.new, SPos.new], rfl, rfl⟩
  · intro i r hi; simp at hi

/-- It applies to what the parser does when it looks for a group: it reads ahead and puts all back, the last first. -/
def lookahead : List Deed :=
  [.setMode .kw, .scan, .scan, .scan, .give 2, .unScan, .give 1, .unScan, .give 0, .unScan, .scan]

example : (given lookahead).Nodup ∧
    ((deedsS (fun _ => 0) textReader lookahead (Sliced.new c!"group /* */ G = 1" 17 c!"f") []).1.getLast?.map fun
      | .scanned o _ raw _ => (o.1, raw)
      | _ => (.illegal, [])) = some (.kGroup, c!"group") := by decide +kernel

/-- A client who reads a word behind a comment, puts both back, reads the comment and the word, and puts both back once
more with the slice that they still have. -/
def again : List Deed :=
  [.scan, .give 0, .unScan, .setMode .commentMode, .scan, .setMode {}, .scan, .give 0, .unScan, .scan]

/-- C79 fails for a slice that is given twice: the scanner has written to it. -/
theorem slices_violation : ∃ text,
    (deedsV again (Scanner.new text c!"f") []).1.getLast? ≠
      (deedsS (fun _ => 0) textReader again (Sliced.new text text.length c!"f") []).1.getLast? ∧
    ((deedsS (fun _ => 0) textReader again (Sliced.new text text.length c!"f") []).2.1.heap.content
      { addr := 1, len := 6 }) ≠ text :=
  ⟨c!"//c\nab", by decide +kernel⟩

end Verif.Props
