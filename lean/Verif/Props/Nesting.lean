import Verif.Spec.Nesting
import Verif.Props.Parse

set_option backward.isDefEq.respectTransparency false
set_option backward.dsimp.instances true

/-!
# C65: statements are ordered and nested in the text as in the tree
-/

namespace Verif.Props

open Verif.Spec

/-- The offsets of the tokens increase. -/
def Rising (ts : List Tok) : Prop := ts.Pairwise (fun t u => t.pos.offset < u.pos.offset)

theorem bytes_append (a b : Str) : bytes (a ++ b) = bytes a + bytes b := by simp [bytes]

theorem bytes_pos {a : Str} (h : a ≠ []) : 0 < bytes a := by
  cases a with
  | nil => exact absurd rfl h
  | cons c a =>
    have : 0 < utf8Len c := by unfold utf8Len; split <;> (try split) <;> (try split) <;> omega
    simp only [bytes, List.map_cons, List.sum_cons]
    omega

theorem layout_rising {file before after : Str} {ts : List Tok} {c : Str} (h : Layout file before after ts c) :
    Rising ts ∧ ∀ t ∈ ts, (bytes before : Int) ≤ t.pos.offset ∧ t.pos.offset < bytes (before ++ c) := by
  induction h with
  | nil => exact ⟨.nil, by simp⟩
  | @cons before after g cs w ts c _ hw _ _ _ ih =>
    have hp := bytes_pos hw
    obtain ⟨h1, h2⟩ := ih
    simp only [bytes_append] at h2
    refine ⟨.cons (fun t ht => ?_) h1, fun t ht => ?_⟩
    · have := (h2 t ht).1
      simp only [posAt, bytes_append]
      omega
    · simp only [bytes_append]
      rcases List.mem_cons.1 ht with rfl | ht
      · simp only [posAt, bytes_append]
        omega
      · have := h2 t ht
        omega

/-- Consecutive stretches of some tokens that are delimited by the elements of a list. -/
inductive Blocks : List Meta → List Tok → Prop
  | nil (ts : List Tok) : Blocks [] ts
  | cons (a us b : List Tok) (i : Meta) (is : List Meta) : Spans us i → Blocks is b → Blocks (i :: is) (a ++ us ++ b)

theorem Blocks.pre (a : List Tok) {is : List Meta} {ts : List Tok} (h : Blocks is ts) : Blocks is (a ++ ts) := by
  cases h with
  | nil => exact .nil _
  | cons b us c i is h1 h2 =>
    have := Blocks.cons (a ++ b) us c i is h1 h2
    simpa [List.append_assoc] using this

theorem Blocks.post (a : List Tok) {is : List Meta} {ts : List Tok} (h : Blocks is ts) : Blocks is (ts ++ a) := by
  induction h with
  | nil => exact .nil _
  | cons b us c i is h1 _ ih =>
    have := Blocks.cons b us (c ++ a) i is h1 ih
    simpa [List.append_assoc] using this

theorem Blocks.one {us : List Tok} {i : Meta} (h : Spans us i) {is : List Meta} {b : List Tok} (hb : Blocks is b) :
    Blocks (i :: is) (us ++ b) := Blocks.cons [] us b i is h hb

theorem Blocks.append {is js : List Meta} {a b : List Tok} (ha : Blocks is a) (hb : Blocks js b) :
    Blocks (is ++ js) (a ++ b) := by
  induction ha with
  | nil ts => exact hb.pre ts
  | cons x us c i is h1 _ ih =>
    have := Blocks.cons x us (c ++ b) i (is ++ js) h1 ih
    simpa [List.append_assoc] using this

theorem spans_mem {us : List Tok} {i : Meta} (h : Spans us i) :
    (∃ t ∈ us, t.pos = i.pos) ∧ ∃ t ∈ us, t.pos = i.lastPos := by
  obtain ⟨⟨t, vs, rfl, h1⟩, ws, u, h2, h3⟩ := h
  exact ⟨⟨t, by simp, h1⟩, u, by simp [h2], h3⟩

theorem spans_le {us : List Tok} {i : Meta} (h : Spans us i) (hr : Rising us) : i.pos.offset ≤ i.lastPos.offset := by
  obtain ⟨⟨t, vs, rfl, h1⟩, ws, u, h2, h3⟩ := h
  have hu : u ∈ t :: vs := by simp [h2]
  rcases List.mem_cons.1 hu with rfl | hu
  · rw [← h1, ← h3]; exact Int.le_refl _
  · have := (List.pairwise_cons.1 hr).1 u hu
    rw [← h1, ← h3]; omega

/-- Both ends of each element are tokens. -/
theorem blocks_mem {is : List Meta} {ts : List Tok} (h : Blocks is ts) {i : Meta} (hi : i ∈ is) :
    (∃ t ∈ ts, t.pos = i.pos) ∧ ∃ t ∈ ts, t.pos = i.lastPos := by
  induction h with
  | nil => cases hi
  | cons a us b j is h1 _ ih =>
    rcases List.mem_cons.1 hi with rfl | hi
    · obtain ⟨⟨t, h2, h3⟩, u, h4, h5⟩ := spans_mem h1
      exact ⟨⟨t, by simp [h2], h3⟩, u, by simp [h4], h5⟩
    · obtain ⟨⟨t, h2, h3⟩, u, h4, h5⟩ := ih hi
      exact ⟨⟨t, by simp [h2], h3⟩, u, by simp [h4], h5⟩

theorem blocks_ordered {is : List Meta} {ts : List Tok} (h : Blocks is ts) (hr : Rising ts) : Ordered is := by
  induction h with
  | nil => exact ⟨by simp, .nil⟩
  | cons a us b i is h1 h2 ih =>
    have hr2 := List.pairwise_append.1 hr
    obtain ⟨h3, h4⟩ := ih hr2.2.1
    have hr3 := List.pairwise_append.1 hr2.1
    obtain ⟨_, t, ht, h5⟩ := spans_mem h1
    refine ⟨fun j hj => ?_, .cons (fun j hj => ?_) h4⟩
    · rcases List.mem_cons.1 hj with rfl | hj
      · exact spans_le h1 hr3.2.1
      · exact h3 j hj
    · obtain ⟨⟨u, hu, h6⟩, _⟩ := blocks_mem h2 hj
      rw [← h5, ← h6]
      exact hr2.2.2 t (by simp [ht]) u hu

/-- Elements strictly between the ends of a statement lie inside it. -/
theorem blocks_inside {a us b : List Tok} {i : Meta} {is : List Meta} (ha : a ≠ []) (hb : b ≠ [])
    (hs : Spans (a ++ us ++ b) i) (h : Blocks is us) (hr : Rising (a ++ us ++ b)) :
    Ordered is ∧ ∀ j ∈ is, Within i j := by
  have hr2 := List.pairwise_append.1 hr
  have hr3 := List.pairwise_append.1 hr2.1
  refine ⟨blocks_ordered h hr3.2.1, fun j hj => ?_⟩
  obtain ⟨⟨t, h1, h2⟩, u, h3, h4⟩ := blocks_mem h hj
  obtain ⟨⟨v, vs, h5, h6⟩, ws, w, h7, h8⟩ := hs
  constructor
  · cases a with
    | nil => exact absurd rfl ha
    | cons x a =>
      rw [List.cons_append, List.cons_append] at h5
      obtain ⟨rfl, _⟩ := List.cons.inj h5
      rw [← h2, ← h6]
      exact hr3.2.2 x (by simp) t h1
  · obtain ⟨b', x, rfl⟩ : ∃ b' x, b = b' ++ [x] := ⟨_, _, (List.dropLast_concat_getLast hb).symm⟩
    rw [← List.append_assoc] at h7
    have := (List.append_inj_right' h7 rfl)
    obtain rfl : x = w := by simpa using this
    rw [← h4, ← h8]
    exact hr2.2.2 u (by simp [h3]) x (by simp)

theorem oneofItems_blocks {G : Gram} {fs : List OneofField} {os : List OptionStmt} {ts : List Tok}
    (h : OneofItems G fs os ts) : Blocks (fs.map (·.info)) ts ∧ Blocks (os.map (·.info)) ts := by
  have hf : ∀ {x : OneofField} {ts : List Tok}, OneofFieldToks G x ts → Spans ts x.info := by
    rintro x ts ⟨_, _, _, _, _, _, _, _, h⟩
    exact h
  have ho : ∀ {x : OptionStmt} {ts : List Tok}, OptionToks G x ts → Spans ts x.info := by
    rintro x ts ⟨_, _, _, _, _, h⟩
    exact h
  induction h with
  | lastField x ts h => exact ⟨by simpa using Blocks.one (hf h) (.nil []), .nil _⟩
  | lastOption x ts h => exact ⟨.nil _, by simpa using Blocks.one (ho h) (.nil [])⟩
  | field x ts fs os ts' h _ ih => exact ⟨.one (hf h) ih.1, ih.2.pre _⟩
  | option x ts fs os ts' h _ ih => exact ⟨ih.1.pre _, .one (ho h) ih.2⟩
  | empty t fs os ts _ _ ih => exact ⟨ih.1.pre [t], ih.2.pre [t]⟩

theorem declarationList_blocks {xs : List Declaration} {ts : List Tok} (h : DeclarationList xs ts) :
    Blocks (xs.map (·.info)) ts := by
  have hd : ∀ {x : Declaration} {ts : List Tok}, DeclarationToks x ts → Spans ts x.info := by
    rintro x ts ⟨_, _, _, _, _, _, _, _, _, h⟩
    exact h
  induction h with
  | one x ts h => simpa using Blocks.one (hd h) (.nil [])
  | more x ts t xs ts' h _ _ ih => exact .one (hd h) (ih.pre [t])

theorem declarations_blocks {xs : List Declaration} {ts : List Tok} (h : Declarations xs ts) :
    Blocks (xs.map (·.info)) ts := by
  cases h with
  | none => exact .nil _
  | some _ a ts b _ h _ => exact ((declarationList_blocks h).pre [a]).post [b]

theorem rpcOptions_blocks {G : Gram} {os : List OptionStmt} {ts : List Tok} (h : RPCOptions G os ts) :
    Blocks (os.map (·.info)) ts := by
  induction h with
  | nil => exact .nil _
  | option x ts xs ts' h _ ih =>
    obtain ⟨_, _, _, _, _, h⟩ := h
    exact .one h ih
  | empty t xs ts _ _ ih => exact ih.pre [t]

theorem body_blocks {G : Gram} : ∀ {vs : List Visitee} {k : Ctx} {ts : List Tok}, Spec.Body G k vs ts →
    Blocks (vs.filterMap metaOf) ts
  | [], _, _, _ => .nil _
  | v :: vs, _, _, .cons k _ us _ ts' h1 h2 _ => by
    rw [List.filterMap_cons]
    split
    · exact (body_blocks h2).pre us
    · exact .one (toks_spans h1 (by assumption)) (body_blocks h2)

theorem close_ne {G : Gram} {ts : List Tok} (h : Close G ts) : ts ≠ [] := by
  rintro rfl
  simp [Close, words] at h

theorem words_ne {ts : List Tok} {w : Str} {ws : List Str} (h : words ts = w :: ws) : ts ≠ [] := by
  rintro rfl
  simp [words] at h

theorem words_ne' {ts : List Tok} {ws : List Str} {w : Str} {vs : List Str} (h : words ts = ws ++ w :: vs) : ts ≠ [] := by
  rintro rfl
  simp [words] at h

/-- The parts of a statement are in order and inside it. -/
theorem toks_parts {G : Gram} {k : Ctx} {v : Visitee} {ts : List Tok} (h : Toks G k v ts) (hr : Rising ts)
    {i : Meta} (hi : metaOf v = some i) {is : List Meta} (hp : is ∈ parts v) :
    Ordered is ∧ ∀ j ∈ is, Within i j := by
  cases h with
  | comment | empty | junk | nil | importStmt | package | option | field | enumField | mapField | reserved =>
    simp [parts] at hp
  | message _ x hd bs cl _ h1 _ h2 h3 h4 =>
    simp only [metaOf, Option.some.injEq] at hi; subst hi
    simp only [parts, List.mem_singleton] at hp; subst hp
    exact blocks_inside (words_ne h1) (close_ne h3) h4 (body_blocks h2) hr
  | group x ls c w hd bs cl _ h1 _ _ _ _ h2 h3 h4 =>
    simp only [metaOf, Option.some.injEq] at hi; subst hi
    simp only [parts, List.mem_singleton] at hp; subst hp
    exact blocks_inside (words_ne' h1) (close_ne h3) h4 (body_blocks h2) hr
  | enum _ x hd bs cl _ h1 _ h2 h3 h4 =>
    simp only [metaOf, Option.some.injEq] at hi; subst hi
    simp only [parts, List.mem_singleton] at hp; subst hp
    exact blocks_inside (words_ne h1) (close_ne h3) h4 (body_blocks h2) hr
  | extend _ x ws hd bs cl _ _ h1 h2 h3 h4 =>
    simp only [metaOf, Option.some.injEq] at hi; subst hi
    simp only [parts, List.mem_singleton] at hp; subst hp
    exact blocks_inside (words_ne h1) (close_ne h3) h4 (body_blocks h2) hr
  | service x hd bs cl h1 _ h2 h3 h4 =>
    simp only [metaOf, Option.some.injEq] at hi; subst hi
    simp only [parts, List.mem_singleton] at hp; subst hp
    exact blocks_inside (words_ne h1) (close_ne h3) h4 (body_blocks h2) hr
  | oneof x _ h =>
    obtain ⟨_, hd, us, cl, h1, h2, h3, rfl, h4⟩ := h
    simp only [metaOf, Option.some.injEq] at hi; subst hi
    simp only [parts, List.mem_cons, List.not_mem_nil, or_false] at hp
    rcases hp with rfl | rfl
    · exact blocks_inside (words_ne h1) (close_ne h3) h4 (oneofItems_blocks h2).1 hr
    · exact blocks_inside (words_ne h1) (close_ne h3) h4 (oneofItems_blocks h2).2 hr
  | extensions x _ h =>
    obtain ⟨a, rs, ds, b, _, _, h1, _, rfl, h2⟩ := h
    simp only [metaOf, Option.some.injEq] at hi; subst hi
    simp only [parts, List.mem_singleton] at hp; subst hp
    exact blocks_inside (a := a :: rs) (by simp) (by simp) h2 (declarations_blocks h1) hr
  | rpc x _ h =>
    obtain ⟨_, hd, rq, rt, rs, tl, h1, ⟨_, _, _, _, h2⟩, _, ⟨_, _, _, _, h3⟩, h4, rfl, h5⟩ := h
    simp only [metaOf, Option.some.injEq] at hi; subst hi
    simp only [parts, List.mem_singleton] at hp; subst hp
    obtain ⟨os, b, hb, rfl, h6⟩ : ∃ os b, b ≠ [] ∧ tl = os ++ b ∧ Blocks (x.options.map (·.info)) os := by
      rcases h4 with ⟨h4, h6⟩ | ⟨a, os, cl, _, h6, h7, rfl⟩
      · exact ⟨[], tl, words_ne h4, rfl, by rw [h6]; exact .nil _⟩
      · exact ⟨a :: os, cl, close_ne h7, rfl, (rpcOptions_blocks h6).pre [a]⟩
    have e : hd ++ rq ++ rt :: rs ++ (os ++ b) = hd ++ (rq ++ (rt :: (rs ++ os))) ++ b := by simp
    rw [e] at h5 hr
    refine blocks_inside (words_ne h1) hb h5 ?_ hr
    exact .one h2 (Blocks.pre [rt] (.one h3 h6))

/-- C65: the statements of a file are in the text, one after the other in the order of the tree, and
the parts of every statement, at any depth, are in order and between its first and its last token.
Missing: files with a failed group that is recovered, where it is false (`nesting_violation`). -/
theorem nesting_partial {input : Str} (hn : NulFree input) {options : List ParseOpt} {fuel : Nat} {p : Proto}
    (h : parse fuel input options = .ok p) (hc : Settled options input p) :
    Ordered (tops p) ∧ (∀ i ∈ tops p, 0 ≤ i.pos.offset ∧ i.lastPos.offset < bytes input) ∧
    ∀ v i is, In v p.protoBody → metaOf v = some i → is ∈ parts v → Ordered is ∧ ∀ j ∈ is, Within i j := by
  obtain ⟨ts, h1, h2⟩ := parse_layout_partial hn h hc
  obtain ⟨hr, hb⟩ := layout_rising h2
  cases h1 with
  | mk bom ss es bs _ hs he hv =>
    have hs' : Blocks (p.syntax_.toList.map (·.info)) ss := by
      generalize p.syntax_ = o at hs
      cases hs with
      | none => exact .nil _
      | some a ts h =>
        obtain ⟨_, _, _, _, _, _, _, h⟩ := h
        simpa using Blocks.one h (.nil [])
    have he' : Blocks (p.edition.toList.map (·.info)) es := by
      generalize p.edition = o at he
      cases he with
      | none => exact .nil _
      | some a ts h =>
        obtain ⟨_, _, _, _, _, _, _, h⟩ := h
        simpa using Blocks.one h (.nil [])
    have hall : Blocks (tops p) (bom ++ ss ++ es ++ bs) := by
      have := ((hs'.append he').append (body_blocks hv)).pre bom
      simpa [tops, List.append_assoc] using this
    refine ⟨blocks_ordered hall hr, fun i hi => ?_, fun v i is hv' hi hp => ?_⟩
    · obtain ⟨⟨t, h3, h4⟩, u, h5, h6⟩ := blocks_mem hall hi
      have := (hb t h3).1
      have := (hb u h5).2
      rw [← h4, ← h6]
      exact ⟨by simpa [bytes] using (hb t h3).1, by simpa using (hb u h5).2⟩
    · obtain ⟨k, a, us, b, rfl, h3⟩ := body_in hv' hv
      refine toks_parts h3 ?_ hi hp
      have h4 := (List.pairwise_append.1 hr).2.1
      exact (List.pairwise_append.1 (List.pairwise_append.1 h4).1).2.1

/-- C65 on the sample: five statements, and a message with seven parts, one of them a group with a part. -/
example : ∃ p, parse 300 doc = .ok p ∧ (tops p).length = 5 ∧ Ordered (tops p) ∧
    ∃ x, Visitee.message x ∈ p.protoBody ∧ (x.messageBody.filterMap metaOf).length = 7 ∧
      Ordered (x.messageBody.filterMap metaOf) := by
  have hd : accepts (fun p => decide ((tops p).length = 5) && p.protoBody.any (fun v => match v with
      | .message x => decide ((x.messageBody.filterMap metaOf).length = 7)
      | _ => false)) (parse 300 doc) = true := by decide +kernel
  obtain ⟨p, h, _⟩ := doc_tree
  rw [h] at hd
  obtain ⟨p', h', hc, _⟩ := doc_tree
  obtain rfl : p = p' := by rw [h] at h'; exact Outcome.ok.inj h'
  obtain ⟨h1, _, h2⟩ := nesting_partial doc_nulFree h (.inr (.inl hc))
  simp only [accepts, Bool.and_eq_true, decide_eq_true_eq, List.any_eq_true] at hd
  obtain ⟨hd1, v, hv, hd2⟩ := hd
  split at hd2
  · rename_i x
    refine ⟨p, h, hd1, h1, x, hv, by simpa using hd2, (h2 (.message x) x.info _ ?_ rfl (by simp [parts])).1⟩
    clear h h' h2 hc hd1 hd2 h1
    generalize p.protoBody = vs at hv
    induction vs with
    | nil => cases hv
    | cons u vs ih =>
      rcases List.mem_cons.1 hv with rfl | hv
      · exact .here _
      · exact .there _ _ (ih hv)
  · cases hd2

/-- C65 is violated after a failed group: this input is accepted, and its tree has a message `H` inside `M`
that begins before `M` does, at a negative offset in line 0.  The `;` that ends the second group is read in the
first of several copies of the text that were put back. -/
theorem nesting_violation :
    accepts (fun p => match p.protoBody with
      | [.message x] => match x.messageBody with
        | [.emptyStatement _, .message y, .emptyStatement _] =>
          decide (x.info.pos.offset = 0 ∧ y.messageName = c!"H" ∧ y.info.pos.offset = -5 ∧ y.info.pos.line = 0)
        | _ => false
      | _ => false)
      (parse 60 c!"message M{group A=1{group A=1{p/*/;message H{}group A=1{/*\n/*///*//*/;}") = true := by
  decide +kernel

/-- C29 is violated by the same input: a statement of the tree starts nowhere in the text. -/
theorem meta_violation :
    ∃ input p v i, NulFree input ∧ parse 60 input = .ok p ∧ In v p.protoBody ∧ metaOf v = some i ∧
      ∀ a b, a ++ b = input → i.pos ≠ posAt [] a := by
  obtain ⟨p, hp, hd⟩ := accepts_ok nesting_violation
  split at hd
  · rename_i x e
    split at hd
    · rename_i e1 y e2 e'
      simp only [decide_eq_true_eq] at hd
      refine ⟨_, p, .message y, y.info, by unfold NulFree; decide +kernel, hp, ?_, rfl, fun a b _ h => ?_⟩
      · rw [e]
        exact .message _ _ (by rw [e']; exact .there _ _ (.here _))
      · have h1 := hd.2.2.1
        rw [h] at h1
        simp only [posAt] at h1
        omega
    · cases hd
  · cases hd

/-- The same, as the negation of the claim of `nesting_partial`. -/
theorem not_nested :
    ∃ input p, NulFree input ∧ parse 60 input = .ok p ∧
      ¬ ∀ v i is, In v p.protoBody → metaOf v = some i → is ∈ parts v → Ordered is ∧ ∀ j ∈ is, Within i j := by
  obtain ⟨p, hp, hd⟩ := accepts_ok nesting_violation
  refine ⟨_, p, by unfold NulFree; decide +kernel, hp, fun hall => ?_⟩
  split at hd
  · rename_i x e
    split at hd
    · rename_i a y b e2
      simp only [decide_eq_true_eq] at hd
      have h1 := (hall (.message x) x.info _ (by rw [e]; exact .here _) rfl (by simp [parts]; rfl)).2 y.info
        (by simp [e2, metaOf])
      have := h1.1
      omega
    · cases hd
  · cases hd

end Verif.Props
