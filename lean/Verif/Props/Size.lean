import Verif.Spec.Size
import Verif.Props.Parse

set_option backward.isDefEq.respectTransparency false
set_option backward.dsimp.instances true

/-!
# C62: the tree is no larger than the input
-/

namespace Verif.Props

open Verif.Spec

/-- The number of semicolons and right curlies among some words. -/
def ends (ws : List Str) : Nat := ws.countP (fun w => w = c!";" || w = c!"}")

theorem ends_append (a b : List Str) : ends (a ++ b) = ends a + ends b := by simp [ends]
theorem ends_cons (a : Str) (b : List Str) : ends (a :: b) = ends [a] + ends b := by
  rw [← ends_append]; rfl
theorem words_append (a b : List Tok) : words (a ++ b) = words a ++ words b := by simp [words]
theorem words_cons (a : Tok) (b : List Tok) : words (a :: b) = a.text :: words b := rfl

theorem ends_semi : ends [c!";"] = 1 := by decide
theorem ends_curly : ends [c!"}"] = 1 := by decide

theorem layout_ends {file before after : Str} {ts : List Tok} {c : Str} (h : Layout file before after ts c) :
    ends (words ts) ≤ c.countP isEnd := by
  induction h with
  | nil => simp [words, ends]
  | cons g cs w ts c _ _ _ _ _ ih =>
    rw [words_cons, ends_cons]
    simp only [List.countP_append]
    have : ends [w] ≤ w.countP isEnd := by
      by_cases h1 : w = c!";"
      · subst h1; decide
      · by_cases h2 : w = c!"}"
        · subst h2; decide
        · simp [ends, h1, h2]
    omega

theorem words_ends {ts : List Tok} {ws : List Str} (h : words ts = ws ++ [c!";"]) : 1 ≤ ends (words ts) := by
  rw [h, ends_append, ends_semi]; omega

theorem written_ends {ts : List Tok} {i : Meta} {ws : List Str} (h : Written ts i (ws ++ [c!";"])) :
    1 ≤ ends (words ts) := words_ends h.1

theorem close_ends {G : Gram} {ts : List Tok} (h : Close G ts) : 1 ≤ ends (words ts) := by
  rcases h with h | ⟨_, h⟩ <;> rw [h] <;> decide

theorem option_ends {G : Gram} {x : OptionStmt} {ts : List Tok} (h : OptionToks G x ts) : 1 ≤ ends (words ts) := by
  obtain ⟨_, _, _, _, h⟩ := h
  exact written_ends h

theorem oneofItems_ends {G : Gram} {fs : List OneofField} {os : List OptionStmt} {ts : List Tok}
    (h : OneofItems G fs os ts) : fs.length + os.length ≤ ends (words ts) := by
  have hf : ∀ {x : OneofField} {ts : List Tok}, OneofFieldToks G x ts → 1 ≤ ends (words ts) := by
    rintro x ts ⟨_, _, _, _, _, _, _, h⟩
    exact written_ends h
  induction h with
  | lastField x ts h => exact hf h
  | lastOption x ts h => exact option_ends h
  | field x ts fs os ts' h _ ih =>
    have := hf h
    rw [words_append, ends_append, List.length_cons]; omega
  | option x ts fs os ts' h _ ih =>
    have := option_ends h
    rw [words_append, ends_append, List.length_cons]; omega
  | empty t fs os ts h _ ih => rw [words_cons, ends_cons]; omega

theorem declarationList_ends {xs : List Declaration} {ts : List Tok} (h : DeclarationList xs ts) :
    xs.length ≤ ends (words ts) := by
  have hd : ∀ {x : Declaration} {ts : List Tok}, DeclarationToks x ts → 1 ≤ ends (words ts) := by
    rintro x ts ⟨_, _, _, _, _, _, _, _, h, _⟩
    rw [h, ends_append, ends_curly]; omega
  induction h with
  | one x ts h => exact hd h
  | more x ts t xs ts' h _ _ ih =>
    have := hd h
    rw [words_append, words_cons, ends_append, ends_cons, List.length_cons]; omega

theorem declarations_ends {xs : List Declaration} {ts : List Tok} (h : Declarations xs ts) :
    xs.length ≤ ends (words ts) := by
  cases h with
  | none => simp
  | some _ a ts b _ h _ =>
    have := declarationList_ends h
    rw [List.cons_append, words_cons, words_append, ends_cons, ends_append]; omega

theorem rpcOptions_ends {G : Gram} {os : List OptionStmt} {ts : List Tok}
    (h : RPCOptions G os ts) : os.length ≤ ends (words ts) := by
  induction h with
  | nil => simp
  | option x ts xs ts' h _ ih =>
    have := option_ends h
    rw [words_append, ends_append, List.length_cons]; omega
  | empty t xs ts h _ ih => rw [words_cons, ends_cons]; omega

mutual
/-- Each statement of an element has a semicolon or right curly of its own. -/
theorem toks_ends {G : Gram} {k : Ctx} {v : Visitee} {ts : List Tok} (h : Toks G k v ts) :
    size v ≤ ends (words ts) := by
  cases h with
  | comment | nil => simp [size]
  | empty _ e t h => simp [size, words, h, ends_semi]
  | junk _ e ts t _ _ h => simp [size, words_append, ends_append, words, h, ends_semi]
  | importStmt x _ h =>
    obtain ⟨_, ms, _, h, _⟩ := h
    rw [size, h, ends_append, ends_cons x.location, ends_semi]; omega
  | package x _ h => obtain ⟨_, _, h⟩ := h; exact written_ends h
  | option _ x _ _ h => exact option_ends h
  | message _ x hd bs cl _ _ _ h1 h2 =>
    have := body_ends h1
    have := close_ends h2
    show 1 + sizes x.messageBody ≤ _
    rw [words_append, words_append, ends_append, ends_append]; omega
  | group x _ _ _ hd bs cl _ _ _ _ _ _ h1 h2 =>
    have := body_ends h1
    have := close_ends h2
    show 1 + sizes x.messageBody ≤ _
    rw [words_append, words_append, ends_append, ends_append]; omega
  | enum _ x hd bs cl _ _ _ h1 h2 =>
    have := body_ends h1
    have := close_ends h2
    show 1 + sizes x.enumBody ≤ _
    rw [words_append, words_append, ends_append, ends_append]; omega
  | extend _ x _ hd bs cl _ _ _ h1 h2 =>
    have := body_ends h1
    have := close_ends h2
    show 1 + sizes x.extendBody ≤ _
    rw [words_append, words_append, ends_append, ends_append]; omega
  | service x hd bs cl _ _ h1 h2 =>
    have := body_ends h1
    have := close_ends h2
    show 1 + sizes x.serviceBody ≤ _
    rw [words_append, words_append, ends_append, ends_append]; omega
  | field _ x _ _ h => obtain ⟨_, _, _, _, _, _, _, _, _, h⟩ := h; exact written_ends h
  | enumField x _ h => obtain ⟨_, _, _, _, _, _, _, _, h⟩ := h; exact written_ends h
  | oneof x _ h =>
    obtain ⟨_, hd, is, cl, _, h1, h2, rfl, _⟩ := h
    have := oneofItems_ends h1
    have := close_ends h2
    rw [size, words_append, words_append, ends_append, ends_append]; omega
  | mapField x _ h => obtain ⟨_, _, _, _, _, _, _, h⟩ := h; exact written_ends h
  | reserved _ x _ _ h =>
    rcases h with ⟨_, _, _, h⟩ | ⟨_, _, _, _, _, h⟩ <;> exact written_ends h
  | extensions x _ h =>
    obtain ⟨a, rs, ds, b, _, _, h1, h2, rfl, _⟩ := h
    have := declarations_ends h1
    rw [size, words_append, words_append, words_cons, words_cons, ends_append, ends_append, h2]
    have : ends (c!";" :: words []) = 1 := ends_semi
    omega
  | rpc x _ h =>
    obtain ⟨_, hd, rq, rt, rs, tl, _, _, _, _, h, rfl, _⟩ := h
    have : 1 + x.options.length ≤ ends (words tl) := by
      rcases h with ⟨h1, h2⟩ | ⟨a, os, cl, _, h1, h2, rfl⟩
      · rw [h1, h2, ends_semi]; simp
      · have := rpcOptions_ends h1
        have := close_ends h2
        rw [List.cons_append, words_cons, words_append, ends_cons, ends_append]; omega
    rw [size, words_append, ends_append]; omega
theorem body_ends {G : Gram} {k : Ctx} {vs : List Visitee} {ts : List Tok} (h : Spec.Body G k vs ts) :
    sizes vs ≤ ends (words ts) := by
  cases h with
  | nil => simp [sizes]
  | cons _ v ts vs ts' h1 h2 =>
    have := toks_ends h1
    have := body_ends h2
    rw [sizes, words_append, ends_append]; omega
end

theorem proto_ends {G : Gram} {p : Proto} {ts : List Tok} (h : ProtoToks G p ts) :
    fileSize p ≤ ends (words ts) := by
  cases h with
  | mk bom ss es bs _ h1 h2 h3 =>
    have hb := body_ends h3
    have hs : p.syntax_.toList.length ≤ ends (words ss) := by
      generalize p.syntax_ = x at h1
      cases h1 with
      | none => simp
      | some x _ h =>
        obtain ⟨_, lq, tq, _, _, _, h, _⟩ := h
        exact words_ends (ws := [_, _, _, _, _]) h
    have he : p.edition.toList.length ≤ ends (words es) := by
      generalize p.edition = x at h2
      cases h2 with
      | none => simp
      | some x _ h =>
        obtain ⟨_, lq, tq, _, _, _, h, _⟩ := h
        exact words_ends (ws := [_, _, _, _, _]) h
    rw [fileSize, words_append, words_append, words_append, ends_append, ends_append, ends_append]; omega

/-- C62: a tree has no more statements than its input has semicolons and right curlies. -/
theorem parse_size_partial {input : Str} (hn : NulFree input) {options : List ParseOpt} {fuel : Nat} {p : Proto}
    (h : parse fuel input options = .ok p) (hc : Settled options input p) :
    fileSize p ≤ input.countP isEnd := by
  obtain ⟨ts, h1, h2⟩ := parse_layout_partial hn h hc
  exact Nat.le_trans (proto_ends h1) (layout_ends h2)

/-- C62 applies to the sample; there are 17 statements and 19 terminators. -/
example : ∃ p, parse 300 doc = .ok p ∧ fileSize p ≤ doc.countP isEnd := by
  obtain ⟨p, h1, hc, _⟩ := doc_tree
  exact ⟨p, h1, parse_size_partial doc_nulFree h1 (.inr (.inl hc))⟩

example : accepts (fun p => decide (fileSize p = 17)) (parse 300 doc) = true ∧ doc.countP isEnd = 19 := by
  refine ⟨?_, ?_⟩ <;> decide +kernel

/-- C62 is violated after a failed group: two terminators, three statements. -/
theorem size_violation :
    accepts (fun p => decide (fileSize p = 3)) (parse 60 c!"message M { optional group G = 1 { extensions ; }") = true ∧
      (c!"message M { optional group G = 1 { extensions ; }").countP isEnd = 2 := by
  refine ⟨?_, ?_⟩ <;> decide +kernel

end Verif.Props
