import Verif.Model.Dump
import Verif.Spec.Depth

/-!
# How deep the JSON value of a tree is
-/

set_option backward.isDefEq.respectTransparency false
set_option backward.dsimp.instances true

namespace Verif.Proofs
open Json Spec

theorem slice_depth {α : Type} {f : α → Json} {n : Nat} (hf : ∀ a, (f a).depth ≤ n) (xs : List α) :
    (slice f xs).depth ≤ n + 1 := by
  have hm : ∀ xs : List α, itemsDepth (xs.map f) ≤ n := by
    intro xs
    induction xs with
    | nil => simp [itemsDepth]
    | cons x xs ih => simp only [List.map_cons, itemsDepth]; have := hf x; omega
  cases xs with
  | nil => simp [slice, depth]
  | cons x xs => simp only [slice, depth, itemsDepth]; have := hf x; have := hm xs; omega

theorem ptr_depth {α : Type} {f : α → Json} {n : Nat} (hf : ∀ a, (f a).depth ≤ n) (x : Option α) :
    (ptr f x).depth ≤ n := by
  cases x with
  | none => simp [ptr, depth]
  | some x => exact hf x

theorem meta_depth (x : Meta) : x.json.depth = 2 := by
  simp [Meta.json, Position.json, depth, fieldsDepth]

theorem comment_depth (x : Comment) : x.json.depth = 3 := by
  simp [Comment.json, depth, fieldsDepth, meta_depth]

theorem comments_depth (x : List Comment) : (slice Comment.json x).depth ≤ 4 :=
  slice_depth (fun a => Nat.le_of_eq (comment_depth a)) x

theorem comment?_depth (x : Option Comment) : (ptr Comment.json x).depth ≤ 3 :=
  ptr_depth (fun a => Nat.le_of_eq (comment_depth a)) x

theorem fieldOptions_depth (x : List FieldOption) : (slice FieldOption.json x).depth ≤ 2 :=
  slice_depth (n := 1) (fun a => by simp [FieldOption.json, depth, fieldsDepth]) x

theorem ranges_depth (x : List Range) : (slice Range.json x).depth ≤ 2 :=
  slice_depth (n := 1) (fun a => by simp [Range.json, depth, fieldsDepth]) x

theorem names_depth (x : List Str) : (slice str x).depth ≤ 1 := slice_depth (n := 0) (fun a => by simp [depth]) x

theorem emptyStatement_depth (x : EmptyStatement) : x.json.depth ≤ 4 := by
  have := comment?_depth x.inlineComment
  simp only [EmptyStatement.json, depth, fieldsDepth]
  omega

theorem syntax_depth (x : Syntax) : x.json.depth ≤ 5 := by
  have := comments_depth x.comments
  have := comment?_depth x.inlineComment
  have := meta_depth x.info
  simp only [Syntax.json, depth, fieldsDepth]
  omega

theorem edition_depth (x : Edition) : x.json.depth ≤ 5 := by
  have := comments_depth x.comments
  have := comment?_depth x.inlineComment
  have := meta_depth x.info
  simp only [Edition.json, depth, fieldsDepth]
  omega

theorem package_depth (x : Package) : x.json.depth ≤ 5 := by
  have := comments_depth x.comments
  have := comment?_depth x.inlineComment
  have := meta_depth x.info
  simp only [Package.json, depth, fieldsDepth]
  omega

theorem option_depth (x : OptionStmt) : x.json.depth ≤ 5 := by
  have := comments_depth x.comments
  have := comment?_depth x.inlineComment
  have := meta_depth x.info
  simp only [OptionStmt.json, depth, fieldsDepth]
  omega

theorem import_depth (x : Import) : x.json.depth ≤ 5 := by
  have := comments_depth x.comments
  have := comment?_depth x.inlineComment
  have := meta_depth x.info
  have : x.modifier.json.depth = 0 := by cases x.modifier <;> simp [ImportModifier.json, depth]
  simp only [Import.json, depth, fieldsDepth]
  omega

theorem field_depth (x : Field) : x.json.depth ≤ 5 := by
  have := fieldOptions_depth x.fieldOptions
  have := comments_depth x.comments
  have := comment?_depth x.inlineComment
  have := meta_depth x.info
  simp only [Field.json, depth, fieldsDepth]
  omega

theorem mapField_depth (x : MapField) : x.json.depth ≤ 5 := by
  have := fieldOptions_depth x.fieldOptions
  have := comments_depth x.comments
  have := comment?_depth x.inlineComment
  have := meta_depth x.info
  simp only [MapField.json, depth, fieldsDepth]
  omega

theorem oneofField_depth (x : OneofField) : x.json.depth ≤ 5 := by
  have := fieldOptions_depth x.fieldOptions
  have := comments_depth x.comments
  have := comment?_depth x.inlineComment
  have := meta_depth x.info
  simp only [OneofField.json, depth, fieldsDepth]
  omega

theorem enumField_depth (x : EnumField) : x.json.depth ≤ 5 := by
  have := fieldOptions_depth x.enumValueOptions
  have := comments_depth x.comments
  have := comment?_depth x.inlineComment
  have := meta_depth x.info
  simp only [EnumField.json, depth, fieldsDepth]
  omega

theorem reserved_depth (x : Reserved) : x.json.depth ≤ 5 := by
  have := ranges_depth x.ranges
  have := names_depth x.fieldNames
  have := comments_depth x.comments
  have := comment?_depth x.inlineComment
  have := meta_depth x.info
  simp only [Reserved.json, depth, fieldsDepth]
  omega

theorem declaration_depth (x : Declaration) : x.json.depth ≤ 5 := by
  have := comments_depth x.comments
  have := comment?_depth x.inlineComment
  have := comment?_depth x.inlineCommentBehindLeftCurly
  have := meta_depth x.info
  simp only [Declaration.json, depth, fieldsDepth]
  omega

theorem extensions_depth (x : Extensions) : x.json.depth ≤ 7 := by
  have := ranges_depth x.ranges
  have := slice_depth declaration_depth x.declarations
  have := comments_depth x.comments
  have := comment?_depth x.inlineComment
  have := comment?_depth x.inlineCommentBehindLeftSquare
  have := meta_depth x.info
  simp only [Extensions.json, depth, fieldsDepth]
  omega

theorem oneof_depth (x : Oneof) : x.json.depth ≤ 7 := by
  have := slice_depth oneofField_depth x.oneofFields
  have := slice_depth option_depth x.options
  have := comments_depth x.comments
  have := comment?_depth x.inlineComment
  have := comment?_depth x.inlineCommentBehindLeftCurly
  have := meta_depth x.info
  simp only [Oneof.json, depth, fieldsDepth]
  omega

theorem rpcMessage_depth (x : RPCMessage) : x.json.depth ≤ 3 := by
  have := meta_depth x.info
  simp only [RPCMessage.json, depth, fieldsDepth]
  omega

theorem rpc_depth (x : RPC) : x.json.depth ≤ 7 := by
  have := rpcMessage_depth x.rpcRequest
  have := rpcMessage_depth x.rpcResponse
  have := slice_depth option_depth x.options
  have := comments_depth x.comments
  have := comment?_depth x.inlineComment
  have := comment?_depth x.inlineCommentBehindLeftCurly
  have := comments_depth x.embeddedComments
  have := meta_depth x.info
  simp only [RPC.json, depth, fieldsDepth]
  omega

mutual

theorem visitee_depth : ∀ v : Visitee, v.json.depth ≤ 2 * levels v + 7
  | .nil => by simp [Visitee.json, depth]
  | .comment x => by have := comment_depth x; simp only [Visitee.json]; omega
  | .importStmt x => by have := import_depth x; simp only [Visitee.json]; omega
  | .package x => by have := package_depth x; simp only [Visitee.json]; omega
  | .option x => by have := option_depth x; simp only [Visitee.json]; omega
  | .emptyStatement x => by have := emptyStatement_depth x; simp only [Visitee.json]; omega
  | .field x => by have := field_depth x; simp only [Visitee.json]; omega
  | .enumField x => by have := enumField_depth x; simp only [Visitee.json]; omega
  | .oneof x => by have := oneof_depth x; simp only [Visitee.json]; omega
  | .mapField x => by have := mapField_depth x; simp only [Visitee.json]; omega
  | .reserved x => by have := reserved_depth x; simp only [Visitee.json]; omega
  | .extensions x => by have := extensions_depth x; simp only [Visitee.json]; omega
  | .rpc x => by have := rpc_depth x; simp only [Visitee.json]; omega
  | .message ⟨_, body, cs, ic, icl, i⟩ => by
    have := body_depth body
    have := comments_depth cs
    have := comment?_depth ic
    have := comment?_depth icl
    have := meta_depth i
    simp only [Visitee.json, depth, fieldsDepth, levels]
    omega
  | .enum ⟨_, body, cs, ic, icl, i⟩ => by
    have := body_depth body
    have := comments_depth cs
    have := comment?_depth ic
    have := comment?_depth icl
    have := meta_depth i
    simp only [Visitee.json, depth, fieldsDepth, levels]
    omega
  | .service ⟨_, body, cs, ic, icl, i⟩ => by
    have := body_depth body
    have := comments_depth cs
    have := comment?_depth ic
    have := comment?_depth icl
    have := meta_depth i
    simp only [Visitee.json, depth, fieldsDepth, levels]
    omega
  | .extend ⟨_, body, cs, ic, icl, i⟩ => by
    have := body_depth body
    have := comments_depth cs
    have := comment?_depth ic
    have := comment?_depth icl
    have := meta_depth i
    simp only [Visitee.json, depth, fieldsDepth, levels]
    omega
  | .groupField ⟨_, _, _, _, body, _, cs, ic, icl, i⟩ => by
    have := body_depth body
    have := comments_depth cs
    have := comment?_depth ic
    have := comment?_depth icl
    have := meta_depth i
    simp only [Visitee.json, depth, fieldsDepth, levels]
    omega

theorem body_depth : ∀ vs : List Visitee, (bodyJson vs).depth ≤ 2 * allLevels vs + 8
  | [] => by simp [bodyJson, depth]
  | v :: vs => by
    have := visitee_depth v
    have := bodyItems_depth vs
    simp only [bodyJson, depth, itemsDepth, allLevels]
    omega

theorem bodyItems_depth : ∀ vs : List Visitee, itemsDepth (bodyItems vs) ≤ 2 * allLevels vs + 7
  | [] => by simp [bodyItems, itemsDepth]
  | v :: vs => by
    have := visitee_depth v
    have := bodyItems_depth vs
    simp only [bodyItems, itemsDepth, allLevels]
    omega

end

theorem proto_depth (p : Proto) : p.json.depth ≤ 2 * allLevels p.protoBody + 9 := by
  have := body_depth p.protoBody
  have := ptr_depth syntax_depth p.syntax_
  have := ptr_depth edition_depth p.edition
  simp only [Proto.json, depth, fieldsDepth]
  omega

mutual

theorem visitee_deep : ∀ v : Visitee, levels v = 0 ∨ 2 * levels v + 1 ≤ v.json.depth
  | .message ⟨_, body, cs, ic, icl, i⟩ => by
    have := body_deep body
    have := meta_depth i
    simp only [Visitee.json, depth, fieldsDepth, levels]
    omega
  | .enum ⟨_, body, cs, ic, icl, i⟩ => by
    have := body_deep body
    have := meta_depth i
    simp only [Visitee.json, depth, fieldsDepth, levels]
    omega
  | .service ⟨_, body, cs, ic, icl, i⟩ => by
    have := body_deep body
    have := meta_depth i
    simp only [Visitee.json, depth, fieldsDepth, levels]
    omega
  | .extend ⟨_, body, cs, ic, icl, i⟩ => by
    have := body_deep body
    have := meta_depth i
    simp only [Visitee.json, depth, fieldsDepth, levels]
    omega
  | .groupField ⟨_, _, _, _, body, _, cs, ic, icl, i⟩ => by
    have := body_deep body
    have := meta_depth i
    simp only [Visitee.json, depth, fieldsDepth, levels]
    omega
  | .nil | .comment _ | .importStmt _ | .package _ | .option _ | .emptyStatement _ | .field _ | .enumField _ | .oneof _
  | .mapField _ | .reserved _ | .extensions _ | .rpc _ => .inl rfl

theorem body_deep : ∀ vs : List Visitee, allLevels vs = 0 ∨ 2 * allLevels vs + 2 ≤ (bodyJson vs).depth
  | [] => by simp [allLevels]
  | v :: vs => by
    have := visitee_deep v
    have := bodyItems_deep vs
    simp only [bodyJson, depth, itemsDepth, allLevels]
    omega

theorem bodyItems_deep : ∀ vs : List Visitee, allLevels vs = 0 ∨ 2 * allLevels vs + 1 ≤ itemsDepth (bodyItems vs)
  | [] => by simp [allLevels]
  | v :: vs => by
    have := visitee_deep v
    have := bodyItems_deep vs
    simp only [bodyItems, itemsDepth, allLevels]
    omega

end

theorem proto_deep (p : Proto) : allLevels p.protoBody = 0 ∨ 2 * allLevels p.protoBody + 3 ≤ p.json.depth := by
  have := body_deep p.protoBody
  simp only [Proto.json, depth, fieldsDepth]
  omega

end Verif.Proofs
