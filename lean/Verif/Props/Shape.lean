import Verif.Proofs.Shape
import Verif.Props.Visitor
import Verif.Props.Unordered
import Verif.Props.Parse

/-!
# The shape of the trees that `Parse` returns (C53), and what follows for `Accept` (C40) and
`UnorderedInterpret` (C37)

No condition on the input: it may hold NUL bytes, groups and recovered empty statements.
-/

set_option backward.isDefEq.respectTransparency false
set_option backward.dsimp.instances true

namespace Verif.Props
open Spec Lexer Unordered

/-- C53: every body of a returned tree holds only the kinds of nodes that belong there; comments are
elements only if asked for and only at the end of a body; a nil value stands behind every empty
statement of the file, and nowhere else. -/
theorem parse_shape {fuel : Nat} {input : Str} {options : List ParseOpt} {p : Proto}
    (h : parse fuel input options = .ok p) :
    Elems (configOf options).bodyIncludingComments .file p.protoBody := by
  obtain ⟨l, h1⟩ := parse_ok h
  exact Parser.ret_parseProto _ _ _ h1

/-! ## C40: `Accept` -/

theorem comments_nil (cs : List Verif.Comment) : anyNil (cs.map Visitee.comment) = false := by
  induction cs with
  | nil => rfl
  | cons c cs ih => simpa [anyNil, hasNil] using ih

mutual
theorem elem_nil {b : Bool} : ∀ {k : Ctx} {v : Visitee}, Elem b k v → hasNil v = false
  | _, _, .importStmt _ | _, _, .package _ | _, _, .option _ _ _ | _, _, .field _ _ _ | _, _, .oneof _
  | _, _, .mapField _ | _, _, .extensions _ | _, _, .reserved _ _ _ | _, _, .enumField _ | _, _, .rpc _
  | _, _, .empty _ _ _ => rfl
  | _, _, .service ⟨_, _, _, _, _, _⟩ h => by simpa [hasNil] using elems_nil (by decide) h
  | _, _, .message _ ⟨_, _, _, _, _, _⟩ _ h => by simpa [hasNil] using elems_nil (by decide) h
  | _, _, .enum _ ⟨_, _, _, _, _, _⟩ _ h => by simpa [hasNil] using elems_nil (by decide) h
  | _, _, .extend _ ⟨_, _, _, _, _, _⟩ _ h => by simpa [hasNil] using elems_nil (by decide) h
  | _, _, .group ⟨_, _, _, _, _, _, _, _, _, _⟩ h => by simpa [hasNil] using elems_nil (by decide) h
theorem elems_nil {b : Bool} : ∀ {k : Ctx} {vs : List Visitee}, k ≠ .file → Elems b k vs → anyNil vs = false
  | _, _, _, .done _ cs _ => comments_nil cs
  | _, _, hk, .stmt _ _ _ h1 h2 => by simp [anyNil, elem_nil h1, elems_nil hk h2]
  | _, _, hk, .semi _ _ => absurd rfl hk
end

theorem file_nil {b : Bool} : ∀ {vs : List Visitee}, Elems b .file vs → (anyNil vs = true ↔ Empties vs)
  | _, .done _ cs _ => by
    simp [comments_nil cs, Empties]
  | _, .stmt _ v vs h1 h2 => by
    have h3 := file_nil h2
    simp only [anyNil, elem_nil h1, Bool.false_or, h3, Empties, List.mem_cons]
    constructor
    · rintro ⟨e, he⟩; exact ⟨e, .inr he⟩
    · rintro ⟨e, rfl | he⟩
      · cases h1; contradiction
      · exact ⟨e, he⟩
  | _, .semi _ _ => by
    constructor
    · exact fun _ => ⟨{}, by simp⟩
    · exact fun _ => by simp [anyNil, hasNil]

/-- C40: `Accept` on a tree that `Parse` returned panics for no visitor if the file has no empty
statement at the top level. -/
theorem parsed_accept_partial {fuel : Nat} {input : Str} {options : List ParseOpt} {p : Proto} {σ : Type}
    (h : parse fuel input options = .ok p) (he : ¬ Empties p.protoBody) (v : Visitor σ) (s : σ) :
    ∃ s', Visit.proto v p s = .ok () s' := by
  refine accept_no_panic v ?_ s
  have := file_nil (parse_shape h)
  cases hn : anyNil p.protoBody with
  | false => rfl
  | true => exact absurd (this.1 hn) he

/-- C40: it panics for a visitor that always descends if the file has one. -/
theorem parsed_accept_panics {fuel : Nat} {input : Str} {options : List ParseOpt} {p : Proto} {σ : Type}
    (h : parse fuel input options = .ok p) {v : Visitor σ} (hv : ∀ n s, (v n s).1 = true) (s : σ) :
    Visit.proto v p s = .halt .panic ↔ Empties p.protoBody :=
  (accept_panics_iff hv p s).trans (file_nil (parse_shape h))

/-! ## C37: `UnorderedInterpret` -/

/-- Without comments, the elements of a block are statements. -/
theorem elems_mem : ∀ {k : Ctx} {vs : List Visitee}, k ≠ .file → Elems false k vs → ∀ v ∈ vs, Elem false k v
  | _, _, _, .done _ cs h => by rw [h rfl]; simp
  | _, _, hk, .stmt _ _ _ h1 h2 => by
    intro v hv
    rcases List.mem_cons.1 hv with rfl | hv
    · exact h1
    · exact elems_mem hk h2 v hv
  | _, _, hk, .semi _ _ => absurd rfl hk

/-- Without comments, the elements of a file are statements and the pairs of an empty statement and a
nil value. -/
theorem file_mem : ∀ {vs : List Visitee}, Elems false .file vs → ∀ v ∈ vs, Elem false .file v ∨
    (Empties vs ∧ (v = .nil ∨ v = .emptyStatement {}))
  | _, .done _ cs h => by rw [h rfl]; simp
  | _, .stmt _ w ws h1 h2 => by
    intro v hv
    rcases List.mem_cons.1 hv with rfl | hv
    · exact .inl h1
    · rcases file_mem h2 v hv with h | ⟨⟨e, he⟩, h⟩
      · exact .inl h
      · exact .inr ⟨⟨e, List.mem_cons_of_mem _ he⟩, h⟩
  | _, .semi ws h2 => by
    intro v hv
    have he : Empties (.emptyStatement {} :: .nil :: ws) := ⟨{}, by simp⟩
    rcases List.mem_cons.1 hv with rfl | hv
    · exact .inr ⟨he, .inr rfl⟩
    · rcases List.mem_cons.1 hv with rfl | hv
      · exact .inr ⟨he, .inl rfl⟩
      · rcases file_mem h2 v hv with h | ⟨_, h⟩
        · exact .inl h
        · exact .inr ⟨he, h⟩

theorem enum_ok {vs : List Visitee} (h : Elems false .enum vs) : vs.all enumOk = true := by
  rw [List.all_eq_true]
  intro v hv
  have := elems_mem (by decide) h v hv
  cases this <;> first | rfl | (next h _ => simp at h) | (next h => simp at h)

theorem extend_ok {vs : List Visitee} (h : Elems false .extend vs) : vs.all extendOk = true := by
  rw [List.all_eq_true]
  intro v hv
  have := elems_mem (by decide) h v hv
  cases this <;> first | rfl | (next h _ => simp at h) | (next h => simp at h)

theorem service_ok {vs : List Visitee} (h : Elems false .service vs) :
    vs.all serviceOk = true ↔ ¬ Empties vs := by
  rw [List.all_eq_true]
  constructor
  · rintro h1 ⟨e, he⟩
    simpa [serviceOk] using h1 _ he
  · intro h1 v hv
    have := elems_mem (by decide) h v hv
    cases this <;> first | rfl | (next h _ => simp at h) | (next h => simp at h) | exact absurd ⟨_, hv⟩ h1

theorem message_ok : ∀ {vs : List Visitee}, Elems false .message vs → messageOk vs = true
  | _, .done _ cs h => by rw [h rfl]; simp [messageOk]
  | _, .stmt _ _ vs h1 h2 => by
    have ih := message_ok h2
    match h1 with
    | .option _ _ _ | .field _ _ _ | .oneof _ | .mapField _ | .extensions _ | .reserved _ _ _
    | .empty _ _ _ | .group _ _ | .extend _ _ _ _ => simpa [messageOk] using ih
    | .message _ ⟨_, _, _, _, _, _⟩ _ h => simp only [messageOk, message_ok h, ih, Bool.and_self]
    | .enum _ _ _ h => simp only [messageOk, enum_ok h, ih, Bool.and_self]

/-- C37: without comments as elements, `UnorderedInterpret` succeeds on a tree that `Parse` returned
exactly if neither the file nor a service of it has an empty statement. -/
theorem parsed_unordered_partial {fuel : Nat} {input : Str} {options : List ParseOpt} {p : Proto}
    (h : parse fuel input options = .ok p) (hb : (configOf options).bodyIncludingComments = false) :
    (∃ u, interpretProto p = .ok u) ↔
      ¬ Empties p.protoBody ∧ ∀ x, Visitee.service x ∈ p.protoBody → ¬ Empties x.serviceBody := by
  have hs := parse_shape h
  rw [hb] at hs
  rw [unordered_succeeds_iff]
  constructor
  · intro h1
    constructor
    · intro he
      have : anyNil p.protoBody = true := (file_nil hs).2 he
      cases hf : forest p.protoBody with
      | none => exact absurd hf (fun hf => by
          have hn : ∀ v ∈ p.protoBody, hasNil v = false := by
            intro v hv
            rcases file_mem hs v hv with h2 | ⟨_, rfl | rfl⟩
            · exact elem_nil h2
            · simpa [protoOk] using h1 _ hv
            · rfl
          have hn' : ∀ vs : List Visitee, (∀ v ∈ vs, hasNil v = false) → anyNil vs = false := by
            intro vs
            induction vs with
            | nil => exact fun _ => rfl
            | cons v vs ih =>
              intro h
              simp [anyNil, h v (by simp), ih (fun v hv => h v (by simp [hv]))]
          rw [hn' _ hn] at this
          cases this)
      | some ts =>
        have := (forest_nil _).2 this
        rw [hf] at this
        cases this
    · intro x hx
      have h2 := h1 _ hx
      rcases file_mem hs _ hx with h3 | ⟨_, h3 | h3⟩
      · cases h3 with
        | service _ h3 => exact (service_ok h3).1 h2
      · cases h3
      · cases h3
  · rintro ⟨h1, h2⟩ v hv
    rcases file_mem hs v hv with h3 | ⟨h3, _⟩
    · cases h3 with
      | importStmt x => rfl
      | package x => rfl
      | option _ _ _ => rfl
      | service x h3 => exact (service_ok h3).2 (h2 x hv)
      | message _ x _ h3 => exact message_ok h3
      | enum _ x _ h3 => exact enum_ok h3
      | extend _ x _ h3 => exact extend_ok h3
      | field _ _ h3 => simp at h3
      | reserved _ _ h3 => simp at h3
      | empty _ _ h3 => exact absurd rfl h3
    · exact absurd h3 h1

/-! ## Examples -/

/-- `Empties`, as a program. -/
def hasEmpty (vs : List Visitee) : Bool := vs.any fun v => match v with | .emptyStatement _ => true | _ => false

/-- An accepted file that meets the conditions of C37 and C40 (or not, with `b`), with `n` elements. -/
def accepted (n : Nat) (b : Bool) : Outcome Proto → Bool
  | .ok p => p.protoBody.length == n && (hasEmpty p.protoBody ||
      p.protoBody.any fun v => match v with | .service x => hasEmpty x.serviceBody | _ => false) == b
  | _ => false

/-- The conditions hold for a file with nested blocks. -/
example : accepted 2 false
    (parse 100 c!"message A { enum B { ; C = 0; } ; } service S { rpc F(A) returns (A); }" []) = true := by
  decide +kernel

/-- The conditions do not hold for a file with a semicolon behind a block, which has a nil element. -/
example : accepted 3 true (parse 100 c!"message A {};" [withPermissive false]) = true := by decide +kernel

end Verif.Props
