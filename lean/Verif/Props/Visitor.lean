import Verif.Spec.Visit
import Verif.Proofs.Lex

/-!
# Properties of visiting (C38-C40)
-/

namespace Verif.Props
open Spec Tree M

variable {σ : Type}

/-! ## Walks -/

theorem walkAll_append (v : Visitor σ) (as bs : List Tree) (s : σ) :
    walkAll v (as ++ bs) s = walkAll v bs (walkAll v as s) := by
  induction as generalizing s with
  | nil => rfl
  | cons a as ih => simp only [List.cons_append, walkAll]; exact ih _

theorem preorderAll_append (as bs : List Tree) :
    preorderAll (as ++ bs) = preorderAll as ++ preorderAll bs := by
  induction as with
  | nil => rfl
  | cons a as ih => simp only [List.cons_append, preorderAll, ih, List.append_assoc]

mutual
theorem walk_prune (p : Node → Bool) (f : σ → Node → σ) : ∀ (t : Tree) (s : σ),
    walk (fun n s => (p n, f s n)) t s = (preorder (prune p t)).foldl f s
  | .mk n ts, s => by
    simp only [walk, prune, preorder, List.foldl_cons]
    cases p n with
    | true => simpa using walkAll_prune p f ts (f s n)
    | false => simp [preorderAll]
theorem walkAll_prune (p : Node → Bool) (f : σ → Node → σ) : ∀ (ts : List Tree) (s : σ),
    walkAll (fun n s => (p n, f s n)) ts s = (preorderAll (pruneAll p ts)).foldl f s
  | [], s => rfl
  | t :: ts, s => by
    simp only [walkAll, pruneAll, preorderAll, List.foldl_append]
    rw [walk_prune p f t s, walkAll_prune p f ts]
end

mutual
theorem prune_true : ∀ t : Tree, prune (fun _ => true) t = t
  | .mk n ts => by simp only [prune, if_true, pruneAll_true ts]
theorem pruneAll_true : ∀ ts : List Tree, pruneAll (fun _ => true) ts = ts
  | [] => rfl
  | t :: ts => by simp only [pruneAll, prune_true t, pruneAll_true ts]
end

/-! ## `Accept` is the walk over the tree -/

theorem run_comments (v : Visitor σ) (cs : List Comment) (s : σ) :
    Visit.comments v cs s = .ok () (walkAll v (cs.map (fun c => leaf (.comment c))) s) := by
  induction cs generalizing s with
  | nil => rfl
  | cons c cs ih =>
    have h1 : walk v (leaf (.comment c)) s = (v (.comment c) s).2 := by
      simp [leaf, walk, walkAll]
    simp only [Visit.comments, List.map_cons, walkAll, h1]
    exact (bind_ok rfl).trans (ih _)

theorem run_comment? (v : Visitor σ) (c : Option Comment) (s : σ) :
    Visit.comment? v c s = .ok () (walkAll v (c.toList.map (fun c => leaf (.comment c))) s) := by
  cases c with
  | none => rfl
  | some c => simp [Visit.comment?, Visit.comment, walkAll, leaf, walk]

theorem run_node (v : Visitor σ) (n : Node) (rest : V σ Unit) (ts : List Tree) (s : σ)
    (h : ∀ s, rest s = .ok () (walkAll v ts s)) :
    Visit.node v n rest s = .ok () (walk v (.mk n ts) s) := by
  simp only [Visit.node, walk]
  split
  · exact h _
  · rfl

theorem run_seq {a b : V σ Unit} {v : Visitor σ} {ts us : List Tree} (s : σ)
    (ha : ∀ s, a s = .ok () (walkAll v ts s)) (hb : ∀ s, b s = .ok () (walkAll v us s)) :
    (do a; b) s = .ok () (walkAll v (ts ++ us) s) := by
  rw [walkAll_append]
  exact (bind_ok (ha s)).trans (hb _)

theorem run_attached2 (v : Visitor σ) (cs : List Comment) (ic : Option Comment) (s : σ) :
    (do Visit.comments v cs; Visit.comment? v ic) s = .ok () (walkAll v (attached cs ic none) s) := by
  have := run_seq s (fun s => run_comments v cs s) (fun s => run_comment? v ic s)
  simpa [attached] using this

theorem run_attached3 (v : Visitor σ) (cs : List Comment) (ic icl : Option Comment) (s : σ) :
    (do Visit.comments v cs; Visit.comment? v ic; Visit.comment? v icl) s =
      .ok () (walkAll v (attached cs ic icl) s) := by
  have := run_seq s (fun s => run_comments v cs s)
    (fun s => run_seq s (fun s => run_comment? v ic s) (fun s => run_comment? v icl s))
  simpa [attached] using this

theorem run_body (v : Visitor σ) {body : V σ Unit} {ts : List Tree} (cs : List Comment)
    (ic icl : Option Comment) (s : σ) (h : ∀ s, body s = .ok () (walkAll v ts s)) :
    (do body; Visit.comments v cs; Visit.comment? v ic; Visit.comment? v icl) s =
      .ok () (walkAll v (ts ++ attached cs ic icl) s) :=
  run_seq s h (fun s => run_attached3 v cs ic icl s)

theorem run_option (v : Visitor σ) (x : OptionStmt) (s : σ) :
    Visit.option v x s = .ok () (walk v (optionTree x) s) :=
  run_node v _ _ _ s (fun s => run_attached2 v _ _ s)

theorem run_oneofField (v : Visitor σ) (x : OneofField) (s : σ) :
    Visit.oneofField v x s = .ok () (walk v (oneofFieldTree x) s) :=
  run_node v _ _ _ s (fun s => run_attached2 v _ _ s)

theorem run_declaration (v : Visitor σ) (x : Declaration) (s : σ) :
    Visit.declaration v x s = .ok () (walk v (declarationTree x) s) :=
  run_node v _ _ _ s (fun s => run_attached3 v _ _ _ s)

theorem run_options (v : Visitor σ) (xs : List OptionStmt) (s : σ) :
    Visit.options v xs s = .ok () (walkAll v (xs.map optionTree) s) := by
  induction xs generalizing s with
  | nil => rfl
  | cons x xs ih => exact (bind_ok (run_option v x s)).trans (ih _)

theorem run_oneofFields (v : Visitor σ) (xs : List OneofField) (s : σ) :
    Visit.oneofFields v xs s = .ok () (walkAll v (xs.map oneofFieldTree) s) := by
  induction xs generalizing s with
  | nil => rfl
  | cons x xs ih => exact (bind_ok (run_oneofField v x s)).trans (ih _)

theorem run_declarations (v : Visitor σ) (xs : List Declaration) (s : σ) :
    Visit.declarations v xs s = .ok () (walkAll v (xs.map declarationTree) s) := by
  induction xs generalizing s with
  | nil => rfl
  | cons x xs ih => exact (bind_ok (run_declaration v x s)).trans (ih _)

mutual
theorem run_accept (v : Visitor σ) : ∀ (x : Visitee) (t : Tree), tree x = some t → ∀ s,
    Visit.accept v x s = .ok () (walk v t s)
  | .nil, t, h, s => by simp [tree] at h
  | .comment c, t, h, s => by
    simp only [tree, Option.some.injEq] at h
    subst h
    simp [Visit.accept, Visit.comment, leaf, walk, walkAll]
  | .importStmt x, t, h, s => by
    simp only [tree, Option.some.injEq] at h
    subst h
    exact run_node v _ _ _ s (fun s => run_attached2 v _ _ s)
  | .package x, t, h, s => by
    simp only [tree, Option.some.injEq] at h
    subst h
    exact run_node v _ _ _ s (fun s => run_attached2 v _ _ s)
  | .option x, t, h, s => by
    simp only [tree, Option.some.injEq] at h
    subst h
    exact run_option v x s
  | .message ⟨nm, body, cs, ic, icl, i⟩, t, h, s => by
    simp only [tree, Option.map_eq_some_iff] at h
    obtain ⟨ts, h, rfl⟩ := h
    exact run_node v _ _ _ s (fun s => run_body v _ _ _ s (run_acceptAll v body ts h))
  | .enum ⟨nm, body, cs, ic, icl, i⟩, t, h, s => by
    simp only [tree, Option.map_eq_some_iff] at h
    obtain ⟨ts, h, rfl⟩ := h
    exact run_node v _ _ _ s (fun s => run_body v _ _ _ s (run_acceptAll v body ts h))
  | .service ⟨nm, body, cs, ic, icl, i⟩, t, h, s => by
    simp only [tree, Option.map_eq_some_iff] at h
    obtain ⟨ts, h, rfl⟩ := h
    exact run_node v _ _ _ s (fun s => run_body v _ _ _ s (run_acceptAll v body ts h))
  | .extend ⟨nm, body, cs, ic, icl, i⟩, t, h, s => by
    simp only [tree, Option.map_eq_some_iff] at h
    obtain ⟨ts, h, rfl⟩ := h
    exact run_node v _ _ _ s (fun s => run_body v _ _ _ s (run_acceptAll v body ts h))
  | .emptyStatement x, t, h, s => by
    simp only [tree, Option.some.injEq] at h
    subst h
    refine run_node v _ _ _ s (fun s => ?_)
    rw [run_comment?]
    simp [attached]
  | .field x, t, h, s => by
    simp only [tree, Option.some.injEq] at h
    subst h
    exact run_node v _ _ _ s (fun s => run_attached2 v _ _ s)
  | .enumField x, t, h, s => by
    simp only [tree, Option.some.injEq] at h
    subst h
    exact run_node v _ _ _ s (fun s => run_attached2 v _ _ s)
  | .oneof x, t, h, s => by
    simp only [tree, Option.some.injEq] at h
    subst h
    refine run_node v _ _ _ s (fun s => ?_)
    rw [List.append_assoc]
    exact run_seq s (fun s => run_oneofFields v _ s) (fun s => run_seq s (fun s => run_options v _ s)
      (fun s => run_attached2 v _ _ s))
  | .mapField x, t, h, s => by
    simp only [tree, Option.some.injEq] at h
    subst h
    exact run_node v _ _ _ s (fun s => run_attached2 v _ _ s)
  | .groupField ⟨a, b, c, nm, body, num, cs, ic, icl, i⟩, t, h, s => by
    simp only [tree, Option.map_eq_some_iff] at h
    obtain ⟨ts, h, rfl⟩ := h
    exact run_node v _ _ _ s (fun s => run_body v _ _ _ s (run_acceptAll v body ts h))
  | .reserved x, t, h, s => by
    simp only [tree, Option.some.injEq] at h
    subst h
    exact run_node v _ _ _ s (fun s => run_attached2 v _ _ s)
  | .extensions x, t, h, s => by
    simp only [tree, Option.some.injEq] at h
    subst h
    refine run_node v _ _ _ s (fun s => ?_)
    exact run_seq s (fun s => run_declarations v _ s) (fun s => run_attached2 v _ _ s)
  | .rpc x, t, h, s => by
    simp only [tree, Option.some.injEq] at h
    subst h
    exact run_node v _ _ _ s (fun s => run_attached2 v _ _ s)
theorem run_acceptAll (v : Visitor σ) : ∀ (xs : List Visitee) (ts : List Tree), forest xs = some ts →
    ∀ s, Visit.acceptAll v xs s = .ok () (walkAll v ts s)
  | [], ts, h, s => by
    simp only [forest, Option.some.injEq] at h
    subst h
    rfl
  | x :: xs, ts, h, s => by
    rw [forest] at h
    split at h
    · next t ts' h1 h2 =>
      simp only [Option.some.injEq] at h
      subst h
      exact (bind_ok (run_accept v x t h1 s)).trans (run_acceptAll v xs ts' h2 _)
    · simp at h
end

/-- C38, C39: `Accept` does exactly what the walk over the rose tree does: it asks the visitor at each
node and skips the descendants of the nodes at which it answers false. -/
theorem accept_is_walk (v : Visitor σ) {p : Proto} {ts : List Tree} (h : protoForest p = some ts) (s : σ) :
    Visit.proto v p s = .ok () (walkAll v ts s) := by
  simp only [protoForest, Option.map_eq_some_iff] at h
  obtain ⟨us, h, rfl⟩ := h
  rw [List.append_assoc]
  refine run_seq s (fun s => ?_) (fun s => run_seq s (fun s => ?_) (run_acceptAll v _ _ h))
  · cases p.syntax_ with
    | none => rfl
    | some x => exact run_node v _ _ _ s (fun s => run_attached2 v _ _ s)
  · cases p.edition with
    | none => rfl
    | some x => exact run_node v _ _ _ s (fun s => run_attached2 v _ _ s)

/-- C38: a visitor that always descends sees the nodes of the tree in pre-order, each once. -/
theorem accept_preorder (f : σ → Node → σ) {p : Proto} {ts : List Tree} (h : protoForest p = some ts)
    (s : σ) : Visit.proto (fun n s => (true, f s n)) p s = .ok () ((preorderAll ts).foldl f s) := by
  rw [accept_is_walk _ h, walkAll_prune (fun _ => true), pruneAll_true]

/-- C39: a visitor that refuses to descend below some nodes sees the pre-order of the tree from which
the descendants of these nodes are removed. -/
theorem accept_prune (q : Node → Bool) (f : σ → Node → σ) {p : Proto} {ts : List Tree}
    (h : protoForest p = some ts) (s : σ) :
    Visit.proto (fun n s => (q n, f s n)) p s = .ok () ((preorderAll (pruneAll q ts)).foldl f s) := by
  rw [accept_is_walk _ h, walkAll_prune q]

/-! ### The elements -/

theorem elements_attached (cs : List Comment) (ic icl : Option Comment) :
    (preorderAll (attached cs ic icl)).filter isElement = [] := by
  unfold attached
  induction cs ++ ic.toList ++ icl.toList with
  | nil => rfl
  | cons c cs ih => simpa [preorderAll, preorder, leaf, isElement] using ih

theorem elements_map {α : Type} (tr : α → Tree) (nd : α → Node)
    (h : ∀ x, (preorder (tr x)).filter isElement = [nd x]) (xs : List α) :
    (preorderAll (xs.map tr)).filter isElement = xs.map nd := by
  induction xs with
  | nil => rfl
  | cons x xs ih => simp only [List.map_cons, preorderAll, List.filter_append, h, ih]; rfl

mutual
theorem elements_tree : ∀ (x : Visitee) (t : Tree), tree x = some t →
    (preorder t).filter isElement = elements x
  | .nil, t, h => by simp [tree] at h
  | .comment c, t, h => by
    simp only [tree, Option.some.injEq] at h
    subst h
    rfl
  | .importStmt x, t, h | .package x, t, h | .option x, t, h | .field x, t, h | .enumField x, t, h
  | .mapField x, t, h | .reserved x, t, h | .rpc x, t, h | .emptyStatement x, t, h => by
    simp only [tree, optionTree, Option.some.injEq] at h
    subst h
    simp [preorder, elements, List.filter_cons, elements_attached, isElement]
  | .message ⟨nm, body, cs, ic, icl, i⟩, t, h | .enum ⟨nm, body, cs, ic, icl, i⟩, t, h
  | .service ⟨nm, body, cs, ic, icl, i⟩, t, h | .extend ⟨nm, body, cs, ic, icl, i⟩, t, h
  | .groupField ⟨_, _, _, nm, body, num, cs, ic, icl, i⟩, t, h => by
    simp only [tree, Option.map_eq_some_iff] at h
    obtain ⟨ts, h, rfl⟩ := h
    have ih := elements_forest body ts h
    simp [preorder, elements, List.filter_cons, preorderAll_append, elements_attached, isElement, ih]
  | .oneof x, t, h => by
    simp only [tree, Option.some.injEq] at h
    subst h
    have h1 := elements_map oneofFieldTree Node.oneofField
      (by intro x; simp [oneofFieldTree, preorder, List.filter_cons, elements_attached, isElement])
      x.oneofFields
    have h2 := elements_map optionTree Node.option
      (by intro x; simp [optionTree, preorder, List.filter_cons, elements_attached, isElement])
      x.options
    simp [preorder, elements, List.filter_cons, preorderAll_append, elements_attached, isElement, h1, h2]
  | .extensions x, t, h => by
    simp only [tree, Option.some.injEq] at h
    subst h
    have h1 := elements_map declarationTree Node.declaration
      (by intro x; simp [declarationTree, preorder, List.filter_cons, elements_attached, isElement])
      x.declarations
    simp [preorder, elements, List.filter_cons, preorderAll_append, elements_attached, isElement, h1]
theorem elements_forest : ∀ (xs : List Visitee) (ts : List Tree), forest xs = some ts →
    (preorderAll ts).filter isElement = elementsAll xs
  | [], ts, h => by
    simp only [forest, Option.some.injEq] at h
    subst h
    rfl
  | x :: xs, ts, h => by
    rw [forest] at h
    split at h
    · next t ts' h1 h2 =>
      simp only [Option.some.injEq] at h
      subst h
      simp only [preorderAll, List.filter_append, elementsAll, elements_tree x t h1,
        elements_forest xs ts' h2]
    · simp at h
end

/-- C38: leaving out comments, the nodes visited are the syntax, the edition and every element of the
body at every depth, once each, parents first, in source order. -/
theorem accept_elements {p : Proto} {ts : List Tree} (h : protoForest p = some ts) :
    (preorderAll ts).filter isElement =
      (p.syntax_.map Node.syntaxStmt).toList ++ (p.edition.map Node.edition).toList ++
        elementsAll p.protoBody := by
  simp only [protoForest, Option.map_eq_some_iff] at h
  obtain ⟨us, h, rfl⟩ := h
  simp only [preorderAll_append, List.filter_append, elements_forest _ _ h]
  congr 1
  congr 1
  · cases p.syntax_ with
    | none => rfl
    | some x => simp [preorderAll, preorder, List.filter_cons, elements_attached, isElement]
  · cases p.edition with
    | none => rfl
    | some x => simp [preorderAll, preorder, List.filter_cons, elements_attached, isElement]

/-! ## C40: panics -/

mutual
theorem tree_nil : ∀ x : Visitee, tree x = none ↔ hasNil x = true
  | .nil => by simp [tree, hasNil]
  | .comment _ | .importStmt _ | .package _ | .option _ | .field _ | .enumField _
  | .mapField _ | .reserved _ | .rpc _ | .emptyStatement _ | .oneof _ | .extensions _ => by
    simp [tree, hasNil]
  | .message ⟨nm, body, cs, ic, icl, i⟩ | .enum ⟨nm, body, cs, ic, icl, i⟩
  | .service ⟨nm, body, cs, ic, icl, i⟩ | .extend ⟨nm, body, cs, ic, icl, i⟩
  | .groupField ⟨_, _, _, nm, body, num, cs, ic, icl, i⟩ => by
    simp only [tree, hasNil, Option.map_eq_none_iff]
    exact forest_nil body
theorem forest_nil : ∀ xs : List Visitee, forest xs = none ↔ anyNil xs = true
  | [] => by simp [forest, anyNil]
  | x :: xs => by
    have h1 := tree_nil x
    have h2 := forest_nil xs
    rw [forest, anyNil, Bool.or_eq_true, ← h1, ← h2]
    cases tree x <;> cases forest xs <;> simp
end

/-- C40: on a tree without nil element no visitor makes `Accept` panic. -/
theorem accept_no_panic (v : Visitor σ) {p : Proto} (h : anyNil p.protoBody = false) (s : σ) :
    ∃ s', Visit.proto v p s = .ok () s' := by
  cases hf : forest p.protoBody with
  | none => rw [(forest_nil _).1 hf] at h; simp at h
  | some ts =>
    obtain ⟨us, hus⟩ : ∃ us, protoForest p = some us := ⟨_, by simp only [protoForest, hf]; rfl⟩
    exact ⟨_, accept_is_walk v hus s⟩

theorem node_halts {v : Visitor σ} (hv : ∀ n s, (v n s).1 = true) {n : Node} {rest : V σ Unit} {s : σ}
    (h : ∀ s, rest s = .halt .panic) : Visit.node v n rest s = .halt .panic := by
  simp only [Visit.node, hv, if_true, h]

mutual
theorem accept_halts {v : Visitor σ} (hv : ∀ n s, (v n s).1 = true) : ∀ x : Visitee,
    hasNil x = true → ∀ s, Visit.accept v x s = .halt .panic
  | .nil, _, s => rfl
  | .comment _, h, _ | .importStmt _, h, _ | .package _, h, _ | .option _, h, _ | .field _, h, _
  | .enumField _, h, _ | .mapField _, h, _ | .reserved _, h, _ | .rpc _, h, _
  | .emptyStatement _, h, _ | .oneof _, h, _ | .extensions _, h, _ => by simp [hasNil] at h
  | .message ⟨nm, body, cs, ic, icl, i⟩, h, s | .enum ⟨nm, body, cs, ic, icl, i⟩, h, s
  | .service ⟨nm, body, cs, ic, icl, i⟩, h, s | .extend ⟨nm, body, cs, ic, icl, i⟩, h, s
  | .groupField ⟨_, _, _, nm, body, num, cs, ic, icl, i⟩, h, s => by
    simp only [hasNil] at h
    simp only [Visit.accept]
    exact node_halts hv (fun s => bind_halt (acceptAll_halts hv body h s))
theorem acceptAll_halts {v : Visitor σ} (hv : ∀ n s, (v n s).1 = true) : ∀ xs : List Visitee,
    anyNil xs = true → ∀ s, Visit.acceptAll v xs s = .halt .panic
  | [], h, _ => by simp [anyNil] at h
  | x :: xs, h, s => by
    rw [Visit.acceptAll]
    cases hx : hasNil x with
    | true => exact bind_halt (accept_halts hv x hx s)
    | false =>
      have hxs : anyNil xs = true := by simpa [anyNil, hx] using h
      cases ht : tree x with
      | none => rw [(tree_nil x).1 ht] at hx; simp at hx
      | some t => exact (bind_ok (run_accept v x t ht s)).trans (acceptAll_halts hv xs hxs _)
end

/-- C40: a visitor that always descends makes `Accept` panic exactly on the trees that contain a nil
element. -/
theorem accept_panics_iff {v : Visitor σ} (hv : ∀ n s, (v n s).1 = true) (p : Proto) (s : σ) :
    Visit.proto v p s = .halt .panic ↔ anyNil p.protoBody = true := by
  constructor
  · intro h
    cases hn : anyNil p.protoBody with
    | true => rfl
    | false =>
      obtain ⟨s', h'⟩ := accept_no_panic v hn s
      rw [h'] at h
      simp at h
  · intro h
    have h1 : ∀ s, ∃ s', Visit.syntax? v p.syntax_ s = .ok () s' := by
      intro s
      cases p.syntax_ with
      | none => exact ⟨s, rfl⟩
      | some x => exact ⟨_, run_node v _ _ _ s (fun s => run_attached2 v _ _ s)⟩
    have h2 : ∀ s, ∃ s', Visit.edition? v p.edition s = .ok () s' := by
      intro s
      cases p.edition with
      | none => exact ⟨s, rfl⟩
      | some x => exact ⟨_, run_node v _ _ _ s (fun s => run_attached2 v _ _ s)⟩
    obtain ⟨s1, h1⟩ := h1 s
    obtain ⟨s2, h2⟩ := h2 s1
    exact (bind_ok h1).trans ((bind_ok h2).trans (acceptAll_halts hv _ h s2))

/-- A sample tree: a message with a commented field and a nested message, after a package. -/
def sampleProto : Proto where
  syntax_ := some { protobufVersion := c!"proto3", protobufVersionQuote := c!"\"proto3\"", info := {} }
  edition := none
  metaFilename := []
  protoBody :=
    [ .package { name := c!"p", info := {} },
      .message
        { messageName := c!"M"
          messageBody :=
            [ .field { isRepeated := true, isRequired := false, isOptional := false, type := c!"int32",
                       fieldName := c!"f", fieldNumber := c!"1", fieldOptions := [],
                       comments := [{ raw := c!"// c", info := {} }], info := {} },
              .message { messageName := c!"N", messageBody := [.emptyStatement {}], info := {} } ]
          inlineComment := some { raw := c!"// d", info := {} }
          info := {} } ]

/-- The number of nodes seen by a visitor that descends everywhere, and by one that does not descend
below messages. -/
example : (∃ ts, protoForest sampleProto = some ts) ∧
    Visit.proto (fun _ s => (true, s + 1)) sampleProto 0 = .ok () 8 ∧
    Visit.proto (fun n s => (match n with | .message _ => false | _ => true, s + 1)) sampleProto 0 =
      .ok () 3 := ⟨⟨_, rfl⟩, rfl, rfl⟩

example : Visit.proto (fun _ (s : Nat) => (true, s + 1))
    { sampleProto with protoBody := sampleProto.protoBody ++ [.emptyStatement {}, .nil] } 0 =
      .halt .panic := rfl

end Verif.Props
