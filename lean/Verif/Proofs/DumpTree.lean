import Verif.Model.Dump

/-!
# The JSON values of trees tell the trees apart
-/

set_option backward.isDefEq.respectTransparency false
set_option backward.dsimp.instances true

namespace Verif.Proofs
open Json

theorem slice_iff {α : Type} {f : α → Json} (hf : ∀ a b, f a = f b ↔ a = b) (xs ys : List α) :
    slice f xs = slice f ys ↔ xs = ys := by
  have hm : ∀ xs ys : List α, xs.map f = ys.map f ↔ xs = ys := by
    intro xs
    induction xs with
    | nil => intro ys; cases ys <;> simp
    | cons x xs ih => intro ys; cases ys <;> simp [hf, ih]
  cases xs <;> cases ys <;> simp [slice, hf, hm]

theorem ptr_iff {α : Type} {f : α → Json} (hf : ∀ a b, f a = f b ↔ a = b) (hn : ∀ a, f a ≠ .null) (x y : Option α) :
    ptr f x = ptr f y ↔ x = y := by
  cases x with
  | none => cases y <;> simp [ptr, (hn _).symm]
  | some a => cases y <;> simp [ptr, hn, hf]

theorem str_iff (a b : Str) : Json.str a = Json.str b ↔ a = b := by simp

theorem modifier_iff (a b : ImportModifier) : a.json = b.json ↔ a = b := by
  cases a <;> cases b <;> simp [ImportModifier.json]

theorem position_iff (a b : Position) : a.json = b.json ↔ a = b := by
  cases a; cases b
  simp [Position.json, str_iff, and_assoc]

theorem meta_iff (a b : Meta) : a.json = b.json ↔ a = b := by
  cases a; cases b
  simp [Meta.json, str_iff, position_iff, and_assoc]

theorem comment_iff (a b : Comment) : a.json = b.json ↔ a = b := by
  cases a; cases b
  simp [Comment.json, str_iff, position_iff, meta_iff, and_assoc]

theorem comments_iff (a b : List Comment) : slice Comment.json a = slice Comment.json b ↔ a = b := slice_iff comment_iff a b

theorem comment?_iff (a b : Option Comment) : ptr Comment.json a = ptr Comment.json b ↔ a = b :=
  ptr_iff comment_iff (by intro a; simp [Comment.json]) a b

theorem emptyStatement_iff (a b : EmptyStatement) : a.json = b.json ↔ a = b := by
  cases a; cases b
  simp [EmptyStatement.json, meta_iff, comments_iff, comment?_iff, and_assoc]

theorem syntax_iff (a b : Syntax) : a.json = b.json ↔ a = b := by
  cases a; cases b
  simp [Syntax.json, meta_iff, comments_iff, comment?_iff, and_assoc]

theorem edition_iff (a b : Edition) : a.json = b.json ↔ a = b := by
  cases a; cases b
  simp [Edition.json, meta_iff, comments_iff, comment?_iff, and_assoc]

theorem import_iff (a b : Import) : a.json = b.json ↔ a = b := by
  cases a; cases b
  simp [Import.json, meta_iff, comments_iff, comment?_iff, modifier_iff, and_assoc]

theorem package_iff (a b : Package) : a.json = b.json ↔ a = b := by
  cases a; cases b
  simp [Package.json, meta_iff, comments_iff, comment?_iff, and_assoc]

theorem option_iff (a b : OptionStmt) : a.json = b.json ↔ a = b := by
  cases a; cases b
  simp [OptionStmt.json, meta_iff, comments_iff, comment?_iff, and_assoc]

theorem fieldOption_iff (a b : FieldOption) : a.json = b.json ↔ a = b := by
  cases a; cases b
  simp [FieldOption.json, meta_iff, comments_iff, comment?_iff, and_assoc]

theorem field_iff (a b : Field) : a.json = b.json ↔ a = b := by
  cases a; cases b
  simp [Field.json, meta_iff, comments_iff, comment?_iff, slice_iff fieldOption_iff, and_assoc]

theorem mapField_iff (a b : MapField) : a.json = b.json ↔ a = b := by
  cases a; cases b
  simp [MapField.json, meta_iff, comments_iff, comment?_iff, slice_iff fieldOption_iff, and_assoc]

theorem oneofField_iff (a b : OneofField) : a.json = b.json ↔ a = b := by
  cases a; cases b
  simp [OneofField.json, meta_iff, comments_iff, comment?_iff, slice_iff fieldOption_iff, and_assoc]

theorem enumField_iff (a b : EnumField) : a.json = b.json ↔ a = b := by
  cases a; cases b
  simp [EnumField.json, meta_iff, comments_iff, comment?_iff, slice_iff fieldOption_iff, and_assoc]

theorem oneof_iff (a b : Oneof) : a.json = b.json ↔ a = b := by
  cases a; cases b
  simp [Oneof.json, meta_iff, comments_iff, comment?_iff, slice_iff oneofField_iff, slice_iff option_iff, and_assoc]

theorem range_iff (a b : Range) : a.json = b.json ↔ a = b := by
  cases a; cases b
  simp [Range.json, meta_iff, comments_iff, comment?_iff, and_assoc]

theorem reserved_iff (a b : Reserved) : a.json = b.json ↔ a = b := by
  cases a; cases b
  simp [Reserved.json, meta_iff, comments_iff, comment?_iff, slice_iff range_iff, slice_iff str_iff, and_assoc]

theorem declaration_iff (a b : Declaration) : a.json = b.json ↔ a = b := by
  cases a; cases b
  simp [Declaration.json, meta_iff, comments_iff, comment?_iff, slice_iff range_iff, slice_iff str_iff, and_assoc]

theorem extensions_iff (a b : Extensions) : a.json = b.json ↔ a = b := by
  cases a; cases b
  simp [Extensions.json, meta_iff, comments_iff, comment?_iff, slice_iff range_iff, slice_iff str_iff, slice_iff declaration_iff, and_assoc]

theorem rpcMessage_iff (a b : RPCMessage) : a.json = b.json ↔ a = b := by
  cases a; cases b
  simp [RPCMessage.json, meta_iff, comments_iff, comment?_iff, and_assoc]

theorem rpc_iff (a b : RPC) : a.json = b.json ↔ a = b := by
  cases a; cases b
  simp [RPC.json, meta_iff, comments_iff, comment?_iff, rpcMessage_iff, slice_iff option_iff, and_assoc]

/-- The names of the fields. -/
def keys : Json → List Str
  | .obj fs => fs.map (·.1)
  | _ => []

/-- The kinds of nodes. -/
def kindNo : Visitee → Fin 18
  | .nil => 0 | .comment _ => 1 | .importStmt _ => 2 | .package _ => 3 | .option _ => 4 | .message _ => 5 | .enum _ => 6
  | .service _ => 7 | .extend _ => 8 | .emptyStatement _ => 9 | .field _ => 10 | .enumField _ => 11 | .oneof _ => 12
  | .mapField _ => 13 | .groupField _ => 14 | .reserved _ => 15 | .extensions _ => 16 | .rpc _ => 17

/-- An example of each kind. -/
def sampleOf (n : Fin 18) : Visitee :=
  [.nil, .comment ⟨[], {}⟩, .importStmt ⟨.none, [], [], none, {}⟩, .package ⟨[], [], none, {}⟩,
    .option ⟨[], [], [], none, {}⟩, .message ⟨[], [], [], none, none, {}⟩, .enum ⟨[], [], [], none, none, {}⟩,
    .service ⟨[], [], [], none, none, {}⟩, .extend ⟨[], [], [], none, none, {}⟩, .emptyStatement {},
    .field ⟨false, false, false, [], [], [], [], [], none, {}⟩, .enumField ⟨[], [], [], [], none, {}⟩,
    .oneof ⟨[], [], [], [], none, none, {}⟩, .mapField ⟨[], [], [], [], [], [], none, {}⟩,
    .groupField ⟨false, false, false, [], [], [], [], none, none, {}⟩, .reserved ⟨[], [], [], none, {}⟩,
    .extensions ⟨[], [], [], none, none, {}⟩,
    .rpc ⟨[], ⟨false, [], {}⟩, ⟨false, [], {}⟩, [], [], none, none, [], {}⟩][n]

theorem keys_sample (v : Visitee) : keys v.json = keys (sampleOf (kindNo v)).json := by
  cases v <;> rfl

/-- No two kinds of nodes have the same fields. -/
theorem keys_differ : ∀ m n : Fin 18, keys (sampleOf m).json = keys (sampleOf n).json → m = n := by
  decide +kernel

theorem kindNo_eq {a b : Visitee} (h : a.json = b.json) : kindNo a = kindNo b :=
  keys_differ _ _ (by rw [← keys_sample, ← keys_sample, h])

mutual

theorem visitee_inj : ∀ a b : Visitee, a.json = b.json → a = b := by
  intro a b h
  have hk := kindNo_eq h
  match a with
  | .nil => cases b <;> first | rfl | simp [kindNo] at hk
  | .message ⟨nm, body, cs, ic, icl, i⟩ =>
    cases b <;> first | (simp [kindNo] at hk; done) | skip
    next m =>
    obtain ⟨nm', body', cs', ic', icl', i'⟩ := m
    simp [Visitee.json, meta_iff, comments_iff, comment?_iff] at h
    obtain ⟨h1, h2, h3⟩ := h
    have := body_inj body body' h2
    simp_all
  | .enum ⟨nm, body, cs, ic, icl, i⟩ =>
    cases b <;> first | (simp [kindNo] at hk; done) | skip
    next m =>
    obtain ⟨nm', body', cs', ic', icl', i'⟩ := m
    simp [Visitee.json, meta_iff, comments_iff, comment?_iff] at h
    obtain ⟨h1, h2, h3⟩ := h
    have := body_inj body body' h2
    simp_all
  | .service ⟨nm, body, cs, ic, icl, i⟩ =>
    cases b <;> first | (simp [kindNo] at hk; done) | skip
    next m =>
    obtain ⟨nm', body', cs', ic', icl', i'⟩ := m
    simp [Visitee.json, meta_iff, comments_iff, comment?_iff] at h
    obtain ⟨h1, h2, h3⟩ := h
    have := body_inj body body' h2
    simp_all
  | .extend ⟨nm, body, cs, ic, icl, i⟩ =>
    cases b <;> first | (simp [kindNo] at hk; done) | skip
    next m =>
    obtain ⟨nm', body', cs', ic', icl', i'⟩ := m
    simp [Visitee.json, meta_iff, comments_iff, comment?_iff] at h
    obtain ⟨h1, h2, h3⟩ := h
    have := body_inj body body' h2
    simp_all
  | .groupField ⟨x, y, z, nm, body, n, cs, ic, icl, i⟩ =>
    cases b <;> first | (simp [kindNo] at hk; done) | skip
    next m =>
    obtain ⟨x', y', z', nm', body', n', cs', ic', icl', i'⟩ := m
    simp [Visitee.json, meta_iff, comments_iff, comment?_iff] at h
    obtain ⟨h1, h2, h3, h4, h5, h6⟩ := h
    have := body_inj body body' h5
    simp_all
  | .comment x =>
    cases b <;> first | (simp [kindNo] at hk; done) | skip
    next y => simp only [Visitee.json] at h; rw [(comment_iff x y).1 h]
  | .importStmt x =>
    cases b <;> first | (simp [kindNo] at hk; done) | skip
    next y => simp only [Visitee.json] at h; rw [(import_iff x y).1 h]
  | .package x =>
    cases b <;> first | (simp [kindNo] at hk; done) | skip
    next y => simp only [Visitee.json] at h; rw [(package_iff x y).1 h]
  | .option x =>
    cases b <;> first | (simp [kindNo] at hk; done) | skip
    next y => simp only [Visitee.json] at h; rw [(option_iff x y).1 h]
  | .emptyStatement x =>
    cases b <;> first | (simp [kindNo] at hk; done) | skip
    next y => simp only [Visitee.json] at h; rw [(emptyStatement_iff x y).1 h]
  | .field x =>
    cases b <;> first | (simp [kindNo] at hk; done) | skip
    next y => simp only [Visitee.json] at h; rw [(field_iff x y).1 h]
  | .enumField x =>
    cases b <;> first | (simp [kindNo] at hk; done) | skip
    next y => simp only [Visitee.json] at h; rw [(enumField_iff x y).1 h]
  | .oneof x =>
    cases b <;> first | (simp [kindNo] at hk; done) | skip
    next y => simp only [Visitee.json] at h; rw [(oneof_iff x y).1 h]
  | .mapField x =>
    cases b <;> first | (simp [kindNo] at hk; done) | skip
    next y => simp only [Visitee.json] at h; rw [(mapField_iff x y).1 h]
  | .reserved x =>
    cases b <;> first | (simp [kindNo] at hk; done) | skip
    next y => simp only [Visitee.json] at h; rw [(reserved_iff x y).1 h]
  | .extensions x =>
    cases b <;> first | (simp [kindNo] at hk; done) | skip
    next y => simp only [Visitee.json] at h; rw [(extensions_iff x y).1 h]
  | .rpc x =>
    cases b <;> first | (simp [kindNo] at hk; done) | skip
    next y => simp only [Visitee.json] at h; rw [(rpc_iff x y).1 h]

theorem body_inj : ∀ xs ys : List Visitee, bodyJson xs = bodyJson ys → xs = ys := by
  intro xs ys h
  match xs, ys with
  | [], [] => rfl
  | [], _ :: _ => simp [bodyJson] at h
  | _ :: _, [] => simp [bodyJson] at h
  | x :: xs, y :: ys =>
    simp only [bodyJson, Json.arr.injEq, List.cons.injEq] at h
    rw [visitee_inj x y h.1, bodyItems_inj xs ys h.2]

theorem bodyItems_inj : ∀ xs ys : List Visitee, bodyItems xs = bodyItems ys → xs = ys := by
  intro xs ys h
  match xs, ys with
  | [], [] => rfl
  | [], _ :: _ => simp [bodyItems] at h
  | _ :: _, [] => simp [bodyItems] at h
  | x :: xs, y :: ys =>
    simp only [bodyItems, List.cons.injEq] at h
    rw [visitee_inj x y h.1, bodyItems_inj xs ys h.2]

end

theorem proto_inj (a b : Proto) (h : a.json = b.json) : a = b := by
  cases a; cases b
  simp [Proto.json, ptr_iff syntax_iff (by intro a; simp [Syntax.json]),
    ptr_iff edition_iff (by intro a; simp [Edition.json])] at h
  obtain ⟨h1, h2, h3, h4⟩ := h
  have := body_inj _ _ h3
  simp_all

/-! ## Unordered trees -/

open Unordered

theorem group_iff (a b : GroupField) : Visitee.json (.groupField a) = Visitee.json (.groupField b) ↔ a = b :=
  ⟨fun h => by have := visitee_inj _ _ h; simpa using this, fun h => by rw [h]⟩

theorem extend_iff (a b : Extend) : Visitee.json (.extend a) = Visitee.json (.extend b) ↔ a = b :=
  ⟨fun h => by have := visitee_inj _ _ h; simpa using this, fun h => by rw [h]⟩

theorem enumBody_iff (a b : EnumBody) : a.json = b.json ↔ a = b := by
  cases a; cases b
  simp [EnumBody.json, slice_iff option_iff, slice_iff enumField_iff, slice_iff reserved_iff,
    slice_iff emptyStatement_iff]

theorem uenum_iff (a b : UEnum) : a.json = b.json ↔ a = b := by
  cases a; cases b
  simp [UEnum.json, enumBody_iff, meta_iff, comments_iff, comment?_iff]

theorem extendBody_iff (a b : ExtendBody) : a.json = b.json ↔ a = b := by
  cases a; cases b
  simp [ExtendBody.json, slice_iff field_iff, slice_iff emptyStatement_iff]

theorem uextend_iff (a b : UExtend) : a.json = b.json ↔ a = b := by
  cases a; cases b
  simp [UExtend.json, extendBody_iff, meta_iff, comments_iff, comment?_iff]

theorem serviceBody_iff (a b : ServiceBody) : a.json = b.json ↔ a = b := by
  cases a; cases b
  simp [ServiceBody.json, slice_iff option_iff, slice_iff rpc_iff]

theorem uservice_iff (a b : UService) : a.json = b.json ↔ a = b := by
  cases a; cases b
  simp [UService.json, serviceBody_iff, meta_iff, comments_iff, comment?_iff]

mutual

theorem umessage_inj : ∀ a b : UMessage, a.json = b.json → a = b := by
  intro a b h
  match a, b with
  | .mk nm ⟨fs, es, ms, os, ofs, mps, gs, rs, xs, em, ext⟩ cs ic icl i,
    .mk nm' ⟨fs', es', ms', os', ofs', mps', gs', rs', xs', em', ext'⟩ cs' ic' icl' i' =>
    simp [UMessage.json, meta_iff, comments_iff, comment?_iff, slice_iff field_iff, slice_iff uenum_iff,
      slice_iff option_iff, slice_iff oneof_iff, slice_iff mapField_iff, slice_iff group_iff, slice_iff reserved_iff,
      slice_iff extend_iff, slice_iff emptyStatement_iff, slice_iff extensions_iff] at h
    obtain ⟨h1, ⟨h2, h3, h4, h5⟩, h6⟩ := h
    have := messages_inj ms ms' h4
    simp_all

theorem messages_inj : ∀ xs ys : List UMessage, messagesJson xs = messagesJson ys → xs = ys := by
  intro xs ys h
  match xs, ys with
  | [], [] => rfl
  | [], _ :: _ => simp [messagesJson] at h
  | _ :: _, [] => simp [messagesJson] at h
  | x :: xs, y :: ys =>
    simp only [messagesJson, Json.arr.injEq, List.cons.injEq] at h
    rw [umessage_inj x y h.1, messageItems_inj xs ys h.2]

theorem messageItems_inj : ∀ xs ys : List UMessage, messageItems xs = messageItems ys → xs = ys := by
  intro xs ys h
  match xs, ys with
  | [], [] => rfl
  | [], _ :: _ => simp [messageItems] at h
  | _ :: _, [] => simp [messageItems] at h
  | x :: xs, y :: ys =>
    simp only [messageItems, List.cons.injEq] at h
    rw [umessage_inj x y h.1, messageItems_inj xs ys h.2]

end

theorem uproto_inj (a b : UProto) (h : a.json = b.json) : a = b := by
  obtain ⟨s, ⟨im, pk, op, ms, ex, en, sv, em⟩⟩ := a
  obtain ⟨s', ⟨im', pk', op', ms', ex', en', sv', em'⟩⟩ := b
  simp [UProto.json, ProtoBody.json, ptr_iff syntax_iff (by intro a; simp [Syntax.json]), slice_iff import_iff,
    slice_iff package_iff, slice_iff option_iff, slice_iff uextend_iff, slice_iff uenum_iff, slice_iff uservice_iff,
    slice_iff emptyStatement_iff] at h
  obtain ⟨h1, h2, h3, h4, h5, h6⟩ := h
  have := messages_inj _ _ h5
  simp_all

end Verif.Proofs
