import Verif.Proofs.Reader
import Verif.Props.Buffer
import Verif.Props.Utf8

set_option backward.isDefEq.respectTransparency false
set_option backward.dsimp.instances true

/-!
# C63, C64: how the input arrives
-/

namespace Verif.Props

open Verif Spec

/-! ## C63: how the reader delivers the bytes does not matter -/

/-- C63: whatever a client of the scanner does, and in whatever pieces the source delivers the bytes, the client sees what
the ideal scanner of the decoded text shows. -/
theorem pieces_unobservable {σ : Type} {io : IOReader σ} {s : σ} {bytes : List Nat} (h : Delivers io s [bytes])
    {size : Nat} (h4 : 4 ≤ size) (filename : Str) (cs : List Call)
    (hf : Fair cs (Scanner.new (Utf8.decode bytes) filename) []) :
    seenC (bufferedReader io size) cs (Concrete.new { src := s } (Utf8.decode bytes).length filename) [] =
      seenA cs (Scanner.new (Utf8.decode bytes) filename) [] :=
  buffer_unobservable _ _ _ _ (gives_bufio h4 h) cs hf

/-- C63, for a text: the source delivers its UTF-8 encoding. -/
theorem pieces_of_text {σ : Type} {io : IOReader σ} {s : σ} {t : Str} (h : Delivers io s [encode t])
    {size : Nat} (h4 : 4 ≤ size) (filename : Str) (cs : List Call) (hf : Fair cs (Scanner.new t filename) []) :
    seenC (bufferedReader io size) cs (Concrete.new { src := s } t.length filename) [] =
      seenA cs (Scanner.new t filename) [] := by
  have := pieces_unobservable h h4 filename cs
  rw [decode_encode] at this
  exact this hf

/-- A source that holds its bytes and gives `g n s` of the bytes `s` when asked for `n`. -/
def pieces (g : Nat → List Nat → Nat) (last : IOErr) : IOReader (List Nat) where
  read n s := if s = [] then ([], some last, []) else (s.take (min n (g n s)), none, s.drop (min n (g n s)))
  fits n s := by
    by_cases h : s = []
    · simp [h]
    · simp only [if_neg h, List.length_take]; omega

theorem pieces_failing (g : Nat → List Nat → Nat) (last : IOErr) : Failing (pieces g last) [] :=
  ⟨fun s => s = [], rfl, fun s h n => by subst h; simp [pieces]⟩

/-- Whatever the sizes of the pieces are, such a source delivers its bytes. -/
theorem pieces_delivers (g : Nat → List Nat → Nat) (hg : ∀ n s, 0 < n → s ≠ [] → 0 < g n s) (last : IOErr)
    (s : List Nat) : Delivers (pieces g last) s [s] := by
  have key : ∀ N (s : List Nat), s.length < N → ∀ k, DeliversIn (pieces g last) N k s [s] := by
    intro N
    induction N with
    | zero => intro s h; omega
    | succ N ih =>
      intro s hl k
      unfold DeliversIn
      intro n hn
      by_cases h : s = []
      · subst h
        simp only [pieces, if_pos]
        exact ⟨trivial, by unfold DeliversIn; exact pieces_failing g last⟩
      · have h1 := hg n s hn h
        have h2 : 0 < s.length := by cases s with | nil => exact absurd rfl h | cons => simp
        simp only [pieces, if_neg h]
        have h3 : (s.take (min n (g n s))).length > 0 := by rw [List.length_take]; omega
        have h4 := ih (s.drop (min n (g n s))) (by rw [List.length_drop]; omega) 0
        have h5 := List.take_append_drop (min n (g n s)) s
        generalize s.take (min n (g n s)) = ds at h3 h5
        cases ds with
        | nil => simp at h3
        | cons a ds => exact ⟨_, h5.symm, h4⟩
  exact ⟨s.length + 1, key _ s (by omega) 0⟩

/-- C63 applies to a source of single bytes, and to one that gives all that is asked for. -/
example (t filename : Str) (cs : List Call) (hf : Fair cs (Scanner.new t filename) []) :
    seenC (bufferedReader (pieces (fun _ _ => 1) .eof) 4096) cs
        (Concrete.new { src := encode t } t.length filename) [] =
      seenC (bufferedReader (pieces (fun n _ => n) .eof) 16) cs
        (Concrete.new { src := encode t } t.length filename) [] := by
  rw [pieces_of_text (pieces_delivers _ (fun _ _ h _ => by omega) _ _) (by omega) _ _ hf,
    pieces_of_text (pieces_delivers _ (fun _ _ h _ => by omega) _ _) (by omega) _ _ hf]

/-- A rune of three bytes comes in three pieces. -/
example : (seenC (bufferedReader (pieces (fun _ _ => 1) .eof) 4096) [.scan, .scan]
      (Concrete.new { src := encode c!"a €" } 3 c!"f") []).getD 1 .nothing =
    .scanned (.illegal, c!"€", none) ⟨c!"f", 2, 1, 3⟩ c!" €" [] := by decide +kernel

/-! ## C64: a read error is reported -/

/-- C64 is violated, whatever happens afterwards: no client of the scanner can tell which error ended the input. -/
theorem read_error_violation {σ τ : Type} {io : IOReader σ} {io' : IOReader τ} {s : σ} {s' : τ}
    {segs : List (List Nat)} (h : Delivers io s segs) (h' : Delivers io' s' segs) {size size' : Nat} (h4 : 4 ≤ size)
    (h4' : 4 ≤ size') (filename : Str) (cs : List Call) (hf : Fair cs (Scanner.new (runes segs) filename) []) :
    seenC (bufferedReader io size) cs (Concrete.new { src := s } (runes segs).length filename) [] =
      seenC (bufferedReader io' size') cs (Concrete.new { src := s' } (runes segs).length filename) [] := by
  rw [buffer_unobservable _ _ _ _ (gives_bufio h4 h) cs hf, buffer_unobservable _ _ _ _ (gives_bufio h4' h') cs hf]

/-- In particular a source that fails behind a complete file is a source that ends there. -/
example (bytes : List Nat) (filename : Str) (cs : List Call)
    (hf : Fair cs (Scanner.new (runes [bytes]) filename) []) :
    seenC (bufferedReader (pieces (fun n _ => n) .other) 4096) cs
        (Concrete.new { src := bytes } (runes [bytes]).length filename) [] =
      seenC (bufferedReader (pieces (fun n _ => n) .eof) 4096) cs
        (Concrete.new { src := bytes } (runes [bytes]).length filename) [] :=
  read_error_violation (pieces_delivers _ (fun _ _ h _ => by omega) _ _) (pieces_delivers _ (fun _ _ h _ => by omega) _ _) (by omega) (by omega) _ _ hf

/-- What holds: an error that goes away is a NUL. -/
theorem read_error_is_nul_partial {σ : Type} {io : IOReader σ} {s : σ} {segs : List (List Nat)} (h : Delivers io s segs)
    {size : Nat} (h4 : 4 ≤ size) (filename : Str) (cs : List Call)
    (hf : Fair cs (Scanner.new (runes segs) filename) []) :
    seenC (bufferedReader io size) cs (Concrete.new { src := s } (runes segs).length filename) [] =
      seenA cs (Scanner.new (runes segs) filename) [] :=
  buffer_unobservable _ _ _ _ (gives_bufio h4 h) cs hf

/-- A source that fails behind each of its segments. -/
def faulty : IOReader (List (List Nat)) where
  read n s :=
    match s with
    | [] => ([], some .eof, [])
    | [] :: segs => ([], some .other, segs)
    | bs :: segs => (bs.take n, none, bs.drop n :: segs)
  fits n s := by
    split
    · simp
    · simp
    · simp only [List.length_take]; omega

theorem faulty_delivers (segs : List (List Nat)) : Delivers faulty segs segs := by
  have key : ∀ N (segs : List (List Nat)), segs.flatten.length + segs.length ≤ N → ∀ k,
      DeliversIn faulty N k segs segs := by
    intro N
    induction N with
    | zero =>
      intro segs h k
      cases segs with
      | nil =>
        unfold DeliversIn
        exact ⟨fun s => s = [], rfl, fun s h n => by subst h; simp [faulty]⟩
      | cons bs segs => simp at h
    | succ N ih =>
      intro segs h k
      unfold DeliversIn
      match segs, h with
      | [], h => exact ⟨fun s => s = [], rfl, fun s h n => by subst h; simp [faulty]⟩
      | [] :: segs, h =>
        intro n hn
        simp only [List.flatten_cons, List.nil_append, List.length_cons] at h
        exact ⟨rfl, ih segs (by omega) 0⟩
      | (b :: bs) :: segs, h =>
        intro n hn
        obtain ⟨n, rfl⟩ : ∃ m, n = m + 1 := ⟨n - 1, by omega⟩
        simp only [List.flatten_cons, List.length_append, List.length_cons] at h
        refine ⟨bs.drop n, by simp, ih (bs.drop n :: segs) ?_ 0⟩
        simp only [List.flatten_cons, List.length_append, List.length_cons, List.length_drop]; omega
  exact ⟨_, key _ segs (Nat.le_refl _) 0⟩

/-- An error that goes away splits a word, and nothing else is seen of it. -/
example : ((seenC (bufferedReader faulty 4096) [.scan, .scan, .scan]
      (Concrete.new { src := [encode c!"a", encode c!"b"] } 3 c!"f") []).map fun
        | .scanned o _ _ _ => o.1
        | _ => .illegal) = [.ident, .ident, .eof] := by decide +kernel

end Verif.Props
