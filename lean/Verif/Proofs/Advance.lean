import Verif.Model.Scanner

/-!
# Consuming a prefix

Basic facts about the scanner's cursor: reading is advancing, un-reading is its inverse.
-/

namespace Verif

/-- The text contains no NUL. -/
def NulFree (t : Str) : Prop := ∀ c ∈ t, c ≠ eof

theorem NulFree.nil : NulFree [] := by simp [NulFree]

theorem nulFree_cons {c : Char} {t : Str} : NulFree (c :: t) ↔ c ≠ eof ∧ NulFree t := by
  simp [NulFree]

theorem nulFree_append {a b : Str} : NulFree (a ++ b) ↔ NulFree a ∧ NulFree b := by
  simp only [NulFree, List.mem_append]
  constructor
  · intro h; exact ⟨fun c hc => h c (.inl hc), fun c hc => h c (.inr hc)⟩
  · rintro ⟨h1, h2⟩ c (hc | hc)
    · exact h1 c hc
    · exact h2 c hc

theorem NulFree.drop {t : Str} (h : NulFree t) (n : Nat) : NulFree (t.drop n) :=
  fun c hc => h c (List.mem_of_mem_drop hc)

theorem NulFree.tail {c : Char} {t : Str} (h : NulFree (c :: t)) : NulFree t := (nulFree_cons.1 h).2
theorem NulFree.head {c : Char} {t : Str} (h : NulFree (c :: t)) : c ≠ eof := (nulFree_cons.1 h).1
theorem NulFree.right {a b : Str} (h : NulFree (a ++ b)) : NulFree b := (nulFree_append.1 h).2
theorem NulFree.left {a b : Str} (h : NulFree (a ++ b)) : NulFree a := (nulFree_append.1 h).1

namespace SPos

@[simp] theorem revert_advance (s : SPos) (c : Char) : (s.advance c).revert c = s := by
  obtain ⟨⟨f, o, l, k⟩, cs⟩ := s
  by_cases h : c = '\n'
  · simp [advance, revert, h]
  · simp [advance, revert, h]

@[simp] theorem advanceAll_nil (s : SPos) : s.advanceAll [] = s := rfl

@[simp] theorem advanceAll_cons (s : SPos) (c : Char) (t : Str) :
    s.advanceAll (c :: t) = (s.advance c).advanceAll t := rfl

@[simp] theorem advanceAll_append (s : SPos) (a b : Str) :
    s.advanceAll (a ++ b) = (s.advanceAll a).advanceAll b := by
  simp [advanceAll, List.foldl_append]

end SPos

namespace Scanner

/-- The state after consuming the text `c`. -/
def adv (s : Scanner) (c : Str) : Scanner :=
  { s with inp := s.inp.drop c.length, raw := s.raw ++ c, pos := s.pos.advanceAll c }

@[simp] theorem adv_nil (s : Scanner) : s.adv [] = s := by simp [adv]

@[simp] theorem adv_adv (s : Scanner) (a b : Str) : (s.adv a).adv b = s.adv (a ++ b) := by
  simp [adv, List.drop_drop, List.append_assoc]

@[simp] theorem adv_inp (s : Scanner) (c : Str) : (s.adv c).inp = s.inp.drop c.length := rfl
@[simp] theorem adv_raw (s : Scanner) (c : Str) : (s.adv c).raw = s.raw ++ c := rfl
@[simp] theorem adv_pos (s : Scanner) (c : Str) : (s.adv c).pos = s.pos.advanceAll c := rfl
@[simp] theorem adv_mode (s : Scanner) (c : Str) : (s.adv c).mode = s.mode := rfl
@[simp] theorem adv_comments (s : Scanner) (c : Str) : (s.adv c).comments = s.comments := rfl

/-- The rune that `peek` sees. -/
def hd (t : Str) : Char := t.headD eof

@[simp] theorem hd_nil : hd [] = eof := rfl
@[simp] theorem hd_cons (c : Char) (t : Str) : hd (c :: t) = c := rfl

theorem hd_eq_eof {t : Str} (h : NulFree t) : hd t = eof ↔ t = [] := by
  cases t with
  | nil => simp
  | cons c t => simp [h.head]

theorem read_nil {s : Scanner} (h : s.inp = []) : read s = .ok eof s := by
  simp [read, h]

theorem read_cons {s : Scanner} {c : Char} {r : Str} (h : s.inp = c :: r) (hc : c ≠ eof) :
    read s = .ok c (s.adv [c]) := by
  simp [read, h, hc, adv]

theorem peek_eq {s : Scanner} (h : NulFree s.inp) : peek s = .ok (hd s.inp) s := by
  cases hi : s.inp with
  | nil =>
    show M.bind read _ s = _
    simp [M.bind, read_nil hi, pure, M.pure]
  | cons c r =>
    rw [hi] at h
    show M.bind read _ s = _
    simp only [M.bind, read_cons hi h.head]
    simp only [h.head, ne_eq, not_false_eq_true, if_true, bind, M.bind, M.modify, pure, M.pure, hd_cons]
    congr 1
    obtain ⟨inp, raw, pos, mode, comments⟩ := s
    simp only at hi
    subst hi
    simp [unread, adv]

theorem isEOF_eq {s : Scanner} (h : NulFree s.inp) : isEOF s = .ok (decide (s.inp = [])) s := by
  show M.bind peek _ s = _
  simp only [M.bind, peek_eq h, pure, M.pure, hd_eq_eof h]

theorem unread_adv {s : Scanner} {c : Char} {r : Str} (h : s.inp = c :: r) :
    unread c { s.adv [c] with raw := s.raw } = s := by
  obtain ⟨inp, raw, pos, mode, comments⟩ := s
  simp only at h
  subst h
  simp [unread, adv]

end Scanner

end Verif
