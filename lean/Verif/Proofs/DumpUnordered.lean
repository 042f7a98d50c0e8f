import Verif.Proofs.DumpDepth
import Verif.Spec.Unordered

/-!
# How deep the JSON value of an unordered tree is
-/

set_option backward.isDefEq.respectTransparency false
set_option backward.dsimp.instances true

namespace Verif.Proofs
open Json Spec Unordered

theorem unEnum_depth (x : Enum) : (unEnum x).json.depth ≤ 8 := by
  have := slice_depth option_depth (x.enumBody.filterMap asOption)
  have := slice_depth enumField_depth (x.enumBody.filterMap asEnumField)
  have := slice_depth reserved_depth (x.enumBody.filterMap asReserved)
  have := slice_depth emptyStatement_depth (x.enumBody.filterMap asEmpty)
  have := comments_depth x.comments
  have := comment?_depth x.inlineComment
  have := comment?_depth x.inlineCommentBehindLeftCurly
  have := meta_depth x.info
  simp only [UEnum.json, unEnum, EnumBody.json, depth, fieldsDepth]
  omega

theorem unExtend_depth (x : Extend) : (unExtend x).json.depth ≤ 8 := by
  have := slice_depth field_depth (x.extendBody.filterMap asField)
  have := slice_depth emptyStatement_depth (x.extendBody.filterMap asEmpty)
  have := comments_depth x.comments
  have := comment?_depth x.inlineComment
  have := comment?_depth x.inlineCommentBehindLeftCurly
  have := meta_depth x.info
  simp only [UExtend.json, unExtend, ExtendBody.json, depth, fieldsDepth]
  omega

theorem unService_depth (x : Service) : (unService x).json.depth ≤ 10 := by
  have := slice_depth option_depth (x.serviceBody.filterMap asOption)
  have := slice_depth rpc_depth (x.serviceBody.filterMap asRpc)
  have := comments_depth x.comments
  have := comment?_depth x.inlineComment
  have := comment?_depth x.inlineCommentBehindLeftCurly
  have := meta_depth x.info
  simp only [UService.json, unService, ServiceBody.json, depth, fieldsDepth]
  omega

/-- The values of chosen elements of a body. -/
theorem picked_depth {α : Type} {as : Visitee → Option α} {f : α → Json} {b : Nat → Nat} (hb : ∀ m n, m ≤ n → b m ≤ b n)
    (hf : ∀ v a, as v = some a → (f a).depth ≤ b (levels v)) (vs : List Visitee) :
    itemsDepth ((vs.filterMap as).map f) ≤ b (allLevels vs) := by
  induction vs with
  | nil => simp [itemsDepth]
  | cons v vs ih =>
    have h1 : b (allLevels vs) ≤ b (allLevels (v :: vs)) := hb _ _ (by simp only [allLevels]; omega)
    cases h : as v with
    | none => simp only [List.filterMap_cons_none h]; omega
    | some a =>
      have h2 := hf v a h
      have h3 : b (levels v) ≤ b (allLevels (v :: vs)) := hb _ _ (by simp only [allLevels]; omega)
      simp only [List.filterMap_cons_some h, List.map_cons, itemsDepth]
      omega

theorem slice_items {α : Type} (f : α → Json) (xs : List α) : (slice f xs).depth ≤ itemsDepth (xs.map f) + 1 := by
  cases xs with
  | nil => simp [slice, depth]
  | cons x xs => simp [slice, depth, itemsDepth]

theorem groups_depth (vs : List Visitee) :
    (slice (fun g => Visitee.json (.groupField g)) (vs.filterMap asGroup)).depth ≤ 2 * allLevels vs + 8 := by
  refine Nat.le_trans (slice_items (fun g => Visitee.json (.groupField g)) (vs.filterMap asGroup)) (Nat.succ_le_succ ?_)
  exact picked_depth (as := asGroup) (f := fun g => Visitee.json (.groupField g)) (b := fun n => 2 * n + 7)
    (by intros; omega) (fun v a h => by
      cases v <;> simp [asGroup] at h
      subst h
      exact visitee_depth _) vs

theorem extends_depth (vs : List Visitee) :
    (slice (fun g => Visitee.json (.extend g)) (vs.filterMap asExtend)).depth ≤ 2 * allLevels vs + 8 := by
  refine Nat.le_trans (slice_items (fun g => Visitee.json (.extend g)) (vs.filterMap asExtend)) (Nat.succ_le_succ ?_)
  exact picked_depth (as := asExtend) (f := fun g => Visitee.json (.extend g)) (b := fun n => 2 * n + 7)
    (by intros; omega) (fun v a h => by
      cases v <;> simp [asExtend] at h
      subst h
      exact visitee_depth _) vs

theorem messagesJson_items (xs : List UMessage) : (messagesJson xs).depth ≤ itemsDepth (messageItems xs) + 1 := by
  cases xs with
  | nil => simp [messagesJson, depth]
  | cons x xs => simp [messagesJson, messageItems, depth, itemsDepth]

/-- A message of the unordered tree, given its nested messages. -/
theorem unMessage_depth (nm : Str) (body : List Visitee) (cs : List Comment) (ic icl : Option Comment) (i : Meta)
    (h : itemsDepth (messageItems (unMessages body)) ≤ 3 * allLevels body + 7) :
    (UMessage.mk nm (unBody body (unMessages body)) cs ic icl i).json.depth ≤ 3 * (allLevels body + 1) + 7 := by
  have h1 := messagesJson_items (unMessages body)
  have := slice_depth field_depth (body.filterMap asField)
  have : (slice UEnum.json ((body.filterMap asEnum).map unEnum)).depth ≤ 3 * allLevels body + 6 := by
    have h1 := slice_items UEnum.json ((body.filterMap asEnum).map unEnum)
    rw [List.map_map] at h1
    have := picked_depth (as := asEnum) (f := UEnum.json ∘ unEnum) (b := fun n => 3 * n + 5) (by intros; omega)
      (fun v a h => by
        cases v <;> simp [asEnum] at h
        have := unEnum_depth a
        simp only [levels, Function.comp]
        omega) body
    omega
  have := slice_depth option_depth (body.filterMap asOption)
  have := slice_depth oneof_depth (body.filterMap asOneof)
  have := slice_depth mapField_depth (body.filterMap asMap)
  have := groups_depth body
  have := slice_depth reserved_depth (body.filterMap asReserved)
  have := extends_depth body
  have := slice_depth emptyStatement_depth (body.filterMap asEmpty)
  have := slice_depth extensions_depth (body.filterMap asExtensions)
  have := comments_depth cs
  have := comment?_depth ic
  have := comment?_depth icl
  have := meta_depth i
  simp only [UMessage.json, unBody, depth, fieldsDepth]
  refine Nat.succ_le_succ (m := 3 * allLevels body + 9) ?_
  simp only [Nat.max_le]
  refine ⟨by omega, Nat.succ_le_succ (m := 3 * allLevels body + 8) ?_, by omega, by omega, by omega, by omega, by omega⟩
  simp only [Nat.max_le]
  refine ⟨by omega, by omega, by omega, by omega, by omega, by omega, by omega, by omega, by omega, by omega, by omega, by omega⟩

theorem unMessages_depth : ∀ vs : List Visitee, itemsDepth (messageItems (unMessages vs)) ≤ 3 * allLevels vs + 7
  | [] => by simp [unMessages, messageItems, itemsDepth]
  | .message ⟨nm, body, cs, ic, icl, i⟩ :: vs => by
    have h1 := unMessage_depth nm body cs ic icl i (unMessages_depth body)
    have h2 := unMessages_depth vs
    simp only [unMessages, messageItems, itemsDepth, allLevels, levels]
    omega
  | .nil :: vs | .comment _ :: vs | .importStmt _ :: vs | .package _ :: vs | .option _ :: vs | .emptyStatement _ :: vs
  | .field _ :: vs | .enumField _ :: vs | .oneof _ :: vs | .mapField _ :: vs | .reserved _ :: vs | .extensions _ :: vs
  | .rpc _ :: vs | .enum _ :: vs | .service _ :: vs | .extend _ :: vs | .groupField _ :: vs => by
    have h2 := unMessages_depth vs
    simp only [unMessages, allLevels]
    omega

theorem unProto_depth (p : Proto) : (unProto p).json.depth ≤ 3 * allLevels p.protoBody + 10 := by
  have := messagesJson_items (unMessages p.protoBody)
  have := unMessages_depth p.protoBody
  have := ptr_depth syntax_depth p.syntax_
  have := slice_depth import_depth (p.protoBody.filterMap asImport)
  have := slice_depth package_depth (p.protoBody.filterMap asPackage)
  have := slice_depth option_depth (p.protoBody.filterMap asOption)
  have : (slice UEnum.json ((p.protoBody.filterMap asEnum).map unEnum)).depth ≤ 3 * allLevels p.protoBody + 6 := by
    have h1 := slice_items UEnum.json ((p.protoBody.filterMap asEnum).map unEnum)
    rw [List.map_map] at h1
    have := picked_depth (as := asEnum) (f := UEnum.json ∘ unEnum) (b := fun n => 3 * n + 5) (by intros; omega)
      (fun v a h => by
        cases v <;> simp [asEnum] at h
        have := unEnum_depth a
        simp only [levels, Function.comp]
        omega) p.protoBody
    omega
  have : (slice UExtend.json ((p.protoBody.filterMap asExtend).map unExtend)).depth ≤ 3 * allLevels p.protoBody + 6 := by
    have h1 := slice_items UExtend.json ((p.protoBody.filterMap asExtend).map unExtend)
    rw [List.map_map] at h1
    have := picked_depth (as := asExtend) (f := UExtend.json ∘ unExtend) (b := fun n => 3 * n + 5) (by intros; omega)
      (fun v a h => by
        cases v <;> simp [asExtend] at h
        have := unExtend_depth a
        simp only [levels, Function.comp]
        omega) p.protoBody
    omega
  have : (slice UService.json ((p.protoBody.filterMap asService).map unService)).depth ≤ 3 * allLevels p.protoBody + 8 := by
    have h1 := slice_items UService.json ((p.protoBody.filterMap asService).map unService)
    rw [List.map_map] at h1
    have := picked_depth (as := asService) (f := UService.json ∘ unService) (b := fun n => 3 * n + 7) (by intros; omega)
      (fun v a h => by
        cases v <;> simp [asService] at h
        have := unService_depth a
        simp only [levels, Function.comp]
        omega) p.protoBody
    omega
  have := slice_depth emptyStatement_depth (p.protoBody.filterMap asEmpty)
  simp only [UProto.json, unProto, ProtoBody.json, depth, fieldsDepth]
  omega

/-! ## From below -/

theorem unMessage_deep (nm : Str) (body : List Visitee) (ms : List UMessage) (cs : List Comment)
    (ic icl : Option Comment) (i : Meta) :
    3 ≤ (UMessage.mk nm (unBody body ms) cs ic icl i).json.depth ∧
      (messagesJson ms).depth + 2 ≤ (UMessage.mk nm (unBody body ms) cs ic icl i).json.depth := by
  have := meta_depth i
  simp only [UMessage.json, unBody, depth, fieldsDepth]
  omega

theorem messagesJson_deep : ∀ xs : List UMessage, xs = [] ∨ (messagesJson xs).depth = itemsDepth (messageItems xs) + 1
  | [] => .inl rfl
  | x :: xs => .inr (by simp [messagesJson, messageItems, depth, itemsDepth])

theorem unMessages_deep : ∀ vs : List Visitee,
    messageLevels vs = 0 ∨ 3 * messageLevels vs ≤ itemsDepth (messageItems (unMessages vs))
  | [] => by simp [messageLevels]
  | .message ⟨nm, body, cs, ic, icl, i⟩ :: vs => by
    have h1 := unMessage_deep nm body (unMessages body) cs ic icl i
    have h2 := unMessages_deep vs
    have h3 := unMessages_deep body
    have h4 := messagesJson_deep (unMessages body)
    simp only [unMessages, messageItems, itemsDepth, messageLevels]
    rcases h4 with h4 | h4
    · rw [h4] at h3
      simp only [messageItems, itemsDepth] at h3
      omega
    · omega
  | .nil :: vs | .comment _ :: vs | .importStmt _ :: vs | .package _ :: vs | .option _ :: vs | .emptyStatement _ :: vs
  | .field _ :: vs | .enumField _ :: vs | .oneof _ :: vs | .mapField _ :: vs | .reserved _ :: vs | .extensions _ :: vs
  | .rpc _ :: vs | .enum _ :: vs | .service _ :: vs | .extend _ :: vs | .groupField _ :: vs => by
    have h2 := unMessages_deep vs
    simp only [unMessages, messageLevels]
    exact h2

theorem unProto_deep (p : Proto) : messageLevels p.protoBody = 0 ∨
    3 * messageLevels p.protoBody + 3 ≤ (unProto p).json.depth := by
  have h1 := unMessages_deep p.protoBody
  have h2 := messagesJson_deep (unMessages p.protoBody)
  simp only [UProto.json, unProto, ProtoBody.json, depth, fieldsDepth]
  rcases h2 with h2 | h2
  · rw [h2] at h1
    simp only [messageItems, itemsDepth] at h1
    omega
  · omega

end Verif.Proofs
