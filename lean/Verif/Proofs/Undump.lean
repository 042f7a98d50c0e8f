import Verif.Spec.Undump

/-!
# Reading a dump back
-/

set_option backward.isDefEq.respectTransparency false
set_option backward.dsimp.instances true

namespace Verif.Proofs.Undump
open Verif Json Verif.Spec.Undump

theorem key_same (k : Str) (x : Json) (fs : List (Str × Json)) : key (.obj ((k, x) :: fs)) k = some x := by simp [key]

theorem key_skip {k l : Str} (h : l ≠ k) (x : Json) (fs : List (Str × Json)) :
    key (.obj ((l, x) :: fs)) k = key (.obj fs) k := by simp [key, h]

theorem key_nil (k : Str) : key (.obj []) k = none := rfl

theorem readAll_map {α : Type} {f : Json → Option α} {g : α → Json} : ∀ {xs : List α}, (∀ x ∈ xs, f (g x) = some x) →
    readAll f (xs.map g) = some xs
  | [], _ => rfl
  | x :: xs, h => by
    simp only [List.map_cons, readAll, h x (by simp), readAll_map (xs := xs) fun y hy => h y (by simp [hy])]
    rfl

theorem sliceOf_slice {α : Type} {f : Json → Option α} {g : α → Json} {xs : List α} (h : ∀ x ∈ xs, f (g x) = some x) :
    sliceOf f (slice g xs) = some xs := by
  cases xs with
  | nil => rfl
  | cons x xs => exact readAll_map (xs := x :: xs) h

theorem ptrOf_ptr {α : Type} {f : Json → Option α} {g : α → Json} (hn : ∀ x, g x ≠ .null) (h : ∀ x, f (g x) = some x)
    (x : Option α) : ptrOf f (ptr g x) = some x := by
  cases x with
  | none => rfl
  | some x =>
    have : ptrOf f (g x) = (f (g x)).map some := by
      unfold ptrOf; split
      · next e => exact absurd e (hn x)
      · rfl
    simp [ptr, this, h]

theorem slice_str (xs : List Str) : sliceOf asStr (slice .str xs) = some xs := sliceOf_slice fun _ _ => rfl

theorem read_modifier (x : ImportModifier) : asModifier x.json = some x := by cases x <;> rfl

theorem read_Position (x : Position) : readPosition x.json = some x := by
  simp [readPosition, Position.json, key, asStr, asInt]

theorem slice_Position (xs : List Position) : sliceOf readPosition (slice Position.json xs) = some xs :=
  sliceOf_slice fun x _ => read_Position x

theorem read_Meta (x : Meta) : readMeta x.json = some x := by
  simp [readMeta, Meta.json, key, read_Position]

theorem slice_Meta (xs : List Meta) : sliceOf readMeta (slice Meta.json xs) = some xs :=
  sliceOf_slice fun x _ => read_Meta x

theorem read_Comment (x : Comment) : readComment x.json = some x := by
  simp [readComment, Comment.json, key, asStr, read_Meta]

theorem slice_Comment (xs : List Comment) : sliceOf readComment (slice Comment.json xs) = some xs :=
  sliceOf_slice fun x _ => read_Comment x

theorem ptr_Comment (x : Option Comment) : ptrOf readComment (ptr Comment.json x) = some x :=
  ptrOf_ptr (fun x => by simp [Comment.json]) read_Comment x

theorem read_EmptyStatement (x : EmptyStatement) : readEmptyStatement x.json = some x := by
  simp [readEmptyStatement, EmptyStatement.json, key, ptr_Comment]

theorem slice_EmptyStatement (xs : List EmptyStatement) : sliceOf readEmptyStatement (slice EmptyStatement.json xs) = some xs :=
  sliceOf_slice fun x _ => read_EmptyStatement x

theorem read_Syntax (x : Syntax) : readSyntax x.json = some x := by
  simp [readSyntax, Syntax.json, key, asStr, slice_Comment, ptr_Comment, read_Meta]

theorem slice_Syntax (xs : List Syntax) : sliceOf readSyntax (slice Syntax.json xs) = some xs :=
  sliceOf_slice fun x _ => read_Syntax x

theorem ptr_Syntax (x : Option Syntax) : ptrOf readSyntax (ptr Syntax.json x) = some x :=
  ptrOf_ptr (fun x => by simp [Syntax.json]) read_Syntax x

theorem read_Edition (x : Edition) : readEdition x.json = some x := by
  simp [readEdition, Edition.json, key, asStr, slice_Comment, ptr_Comment, read_Meta]

theorem slice_Edition (xs : List Edition) : sliceOf readEdition (slice Edition.json xs) = some xs :=
  sliceOf_slice fun x _ => read_Edition x

theorem ptr_Edition (x : Option Edition) : ptrOf readEdition (ptr Edition.json x) = some x :=
  ptrOf_ptr (fun x => by simp [Edition.json]) read_Edition x

theorem read_Import (x : Import) : readImport x.json = some x := by
  simp [readImport, Import.json, key, read_modifier, asStr, slice_Comment, ptr_Comment, read_Meta]

theorem slice_Import (xs : List Import) : sliceOf readImport (slice Import.json xs) = some xs :=
  sliceOf_slice fun x _ => read_Import x

theorem read_Package (x : Package) : readPackage x.json = some x := by
  simp [readPackage, Package.json, key, asStr, slice_Comment, ptr_Comment, read_Meta]

theorem slice_Package (xs : List Package) : sliceOf readPackage (slice Package.json xs) = some xs :=
  sliceOf_slice fun x _ => read_Package x

theorem read_OptionStmt (x : OptionStmt) : readOptionStmt x.json = some x := by
  simp [readOptionStmt, OptionStmt.json, key, asStr, slice_Comment, ptr_Comment, read_Meta]

theorem slice_OptionStmt (xs : List OptionStmt) : sliceOf readOptionStmt (slice OptionStmt.json xs) = some xs :=
  sliceOf_slice fun x _ => read_OptionStmt x

theorem read_FieldOption (x : FieldOption) : readFieldOption x.json = some x := by
  simp [readFieldOption, FieldOption.json, key, asStr]

theorem slice_FieldOption (xs : List FieldOption) : sliceOf readFieldOption (slice FieldOption.json xs) = some xs :=
  sliceOf_slice fun x _ => read_FieldOption x

theorem read_Field (x : Field) : readField x.json = some x := by
  simp [readField, Field.json, key, asBool, asStr, slice_FieldOption, slice_Comment, ptr_Comment, read_Meta]

theorem slice_Field (xs : List Field) : sliceOf readField (slice Field.json xs) = some xs :=
  sliceOf_slice fun x _ => read_Field x

theorem read_MapField (x : MapField) : readMapField x.json = some x := by
  simp [readMapField, MapField.json, key, asStr, slice_FieldOption, slice_Comment, ptr_Comment, read_Meta]

theorem slice_MapField (xs : List MapField) : sliceOf readMapField (slice MapField.json xs) = some xs :=
  sliceOf_slice fun x _ => read_MapField x

theorem read_OneofField (x : OneofField) : readOneofField x.json = some x := by
  simp [readOneofField, OneofField.json, key, asStr, slice_FieldOption, slice_Comment, ptr_Comment, read_Meta]

theorem slice_OneofField (xs : List OneofField) : sliceOf readOneofField (slice OneofField.json xs) = some xs :=
  sliceOf_slice fun x _ => read_OneofField x

theorem read_Oneof (x : Oneof) : readOneof x.json = some x := by
  simp [readOneof, Oneof.json, key, slice_OneofField, asStr, slice_OptionStmt, slice_Comment, ptr_Comment,
    read_Meta]

theorem slice_Oneof (xs : List Oneof) : sliceOf readOneof (slice Oneof.json xs) = some xs :=
  sliceOf_slice fun x _ => read_Oneof x

theorem read_EnumField (x : EnumField) : readEnumField x.json = some x := by
  simp [readEnumField, EnumField.json, key, asStr, slice_FieldOption, slice_Comment, ptr_Comment, read_Meta]

theorem slice_EnumField (xs : List EnumField) : sliceOf readEnumField (slice EnumField.json xs) = some xs :=
  sliceOf_slice fun x _ => read_EnumField x

theorem read_Range (x : Range) : readRange x.json = some x := by
  simp [readRange, Range.json, key, asStr]

theorem slice_Range (xs : List Range) : sliceOf readRange (slice Range.json xs) = some xs :=
  sliceOf_slice fun x _ => read_Range x

theorem read_Reserved (x : Reserved) : readReserved x.json = some x := by
  simp [readReserved, Reserved.json, key, slice_Range, slice_str, slice_Comment, ptr_Comment, read_Meta]

theorem slice_Reserved (xs : List Reserved) : sliceOf readReserved (slice Reserved.json xs) = some xs :=
  sliceOf_slice fun x _ => read_Reserved x

theorem read_Declaration (x : Declaration) : readDeclaration x.json = some x := by
  simp [readDeclaration, Declaration.json, key, asStr, asBool, slice_Comment, ptr_Comment, read_Meta]

theorem slice_Declaration (xs : List Declaration) : sliceOf readDeclaration (slice Declaration.json xs) = some xs :=
  sliceOf_slice fun x _ => read_Declaration x

theorem read_Extensions (x : Extensions) : readExtensions x.json = some x := by
  simp [readExtensions, Extensions.json, key, slice_Range, slice_Declaration, slice_Comment, ptr_Comment,
    read_Meta]

theorem slice_Extensions (xs : List Extensions) : sliceOf readExtensions (slice Extensions.json xs) = some xs :=
  sliceOf_slice fun x _ => read_Extensions x

theorem read_RPCMessage (x : RPCMessage) : readRPCMessage x.json = some x := by
  simp [readRPCMessage, RPCMessage.json, key, asBool, asStr, read_Meta]

theorem slice_RPCMessage (xs : List RPCMessage) : sliceOf readRPCMessage (slice RPCMessage.json xs) = some xs :=
  sliceOf_slice fun x _ => read_RPCMessage x

theorem read_RPC (x : RPC) : readRPC x.json = some x := by
  simp [readRPC, RPC.json, key, asStr, read_RPCMessage, slice_OptionStmt, slice_Comment, ptr_Comment, read_Meta]

theorem slice_RPC (xs : List RPC) : sliceOf readRPC (slice RPC.json xs) = some xs :=
  sliceOf_slice fun x _ => read_RPC x

open Unordered

theorem read_EnumBody (x : EnumBody) : readEnumBody x.json = some x := by
  simp [readEnumBody, EnumBody.json, key, slice_OptionStmt, slice_EnumField, slice_Reserved, slice_EmptyStatement]

theorem slice_EnumBody (xs : List EnumBody) : sliceOf readEnumBody (slice EnumBody.json xs) = some xs :=
  sliceOf_slice fun x _ => read_EnumBody x

theorem read_UEnum (x : UEnum) : readUEnum x.json = some x := by
  simp [readUEnum, UEnum.json, key, asStr, read_EnumBody, slice_Comment, ptr_Comment, read_Meta]

theorem slice_UEnum (xs : List UEnum) : sliceOf readUEnum (slice UEnum.json xs) = some xs :=
  sliceOf_slice fun x _ => read_UEnum x

theorem read_ExtendBody (x : ExtendBody) : readExtendBody x.json = some x := by
  simp [readExtendBody, ExtendBody.json, key, slice_Field, slice_EmptyStatement]

theorem slice_ExtendBody (xs : List ExtendBody) : sliceOf readExtendBody (slice ExtendBody.json xs) = some xs :=
  sliceOf_slice fun x _ => read_ExtendBody x

theorem read_UExtend (x : UExtend) : readUExtend x.json = some x := by
  simp [readUExtend, UExtend.json, key, asStr, read_ExtendBody, slice_Comment, ptr_Comment, read_Meta]

theorem slice_UExtend (xs : List UExtend) : sliceOf readUExtend (slice UExtend.json xs) = some xs :=
  sliceOf_slice fun x _ => read_UExtend x

theorem read_ServiceBody (x : ServiceBody) : readServiceBody x.json = some x := by
  simp [readServiceBody, ServiceBody.json, key, slice_OptionStmt, slice_RPC]

theorem slice_ServiceBody (xs : List ServiceBody) : sliceOf readServiceBody (slice ServiceBody.json xs) = some xs :=
  sliceOf_slice fun x _ => read_ServiceBody x

theorem read_UService (x : UService) : readUService x.json = some x := by
  simp [readUService, UService.json, key, asStr, read_ServiceBody, slice_Comment, ptr_Comment, read_Meta]

theorem slice_UService (xs : List UService) : sliceOf readUService (slice UService.json xs) = some xs :=
  sliceOf_slice fun x _ => read_UService x

theorem depth_arr {x : Json} {xs : List Json} (h : x ∈ xs) : x.depth ≤ itemsDepth xs := by
  induction xs with
  | nil => simp at h
  | cons y ys ih =>
    rcases List.mem_cons.1 h with rfl | h
    · exact Nat.le_max_left _ _
    · exact Nat.le_trans (ih h) (Nat.le_max_right _ _)

theorem depth_obj {k : Str} {x : Json} {fs : List (Str × Json)} (h : (k, x) ∈ fs) : x.depth < (Json.obj fs).depth := by
  have : x.depth ≤ fieldsDepth fs := by
    induction fs with
    | nil => simp at h
    | cons y ys ih =>
      obtain ⟨l, y⟩ := y
      rcases List.mem_cons.1 h with e | h
      · cases e; exact Nat.le_max_left _ _
      · exact Nat.le_trans (ih h) (Nat.le_max_right _ _)
  simpa [depth] using Nat.lt_succ_of_le this

theorem bodyItems_map : ∀ vs : List Visitee, bodyItems vs = vs.map Visitee.json
  | [] => rfl
  | v :: vs => by simp [bodyItems, bodyItems_map vs]

theorem bodyJson_slice (vs : List Visitee) : bodyJson vs = slice Visitee.json vs := by
  cases vs with
  | nil => rfl
  | cons v vs => simp [bodyJson, slice, bodyItems_map]

theorem slice_depth {α : Type} (g : α → Json) {x : α} {xs : List α} (h : x ∈ xs) : (g x).depth < (slice g xs).depth := by
  cases xs with
  | nil => simp at h
  | cons y ys =>
    have : (g x).depth ≤ itemsDepth ((y :: ys).map g) := depth_arr (List.mem_map.2 ⟨x, h, rfl⟩)
    simpa [slice, depth] using Nat.lt_succ_of_le this

theorem read_Visitee : ∀ (n : Nat) (v : Visitee), v.json.depth < n → readVisitee n v.json = some v := by
  intro n
  induction n with
  | zero => intro v h; omega
  | succ n ih =>
    intro v h
    have hb : ∀ vs : List Visitee, (bodyJson vs).depth < v.json.depth →
        sliceOf (readVisitee n) (bodyJson vs) = some vs := by
      intro vs hv
      rw [bodyJson_slice] at hv ⊢
      exact sliceOf_slice fun x hx => ih x (by have := slice_depth Visitee.json hx; omega)
    cases v with
    | nil => rfl
    | comment x => have := read_Comment x; simp_all [readVisitee, Visitee.json, Comment.json, has, key]
    | importStmt x => have := read_Import x; simp_all [readVisitee, Visitee.json, Import.json, has, key]
    | package x => have := read_Package x; simp_all [readVisitee, Visitee.json, Package.json, has, key]
    | option x => have := read_OptionStmt x; simp_all [readVisitee, Visitee.json, OptionStmt.json, has, key]
    | emptyStatement x => have := read_EmptyStatement x; simp_all [readVisitee, Visitee.json, EmptyStatement.json, has, key]
    | field x => have := read_Field x; simp_all [readVisitee, Visitee.json, Field.json, has, key]
    | enumField x => have := read_EnumField x; simp_all [readVisitee, Visitee.json, EnumField.json, has, key]
    | oneof x => have := read_Oneof x; simp_all [readVisitee, Visitee.json, Oneof.json, has, key]
    | mapField x => have := read_MapField x; simp_all [readVisitee, Visitee.json, MapField.json, has, key]
    | reserved x => have := read_Reserved x; simp_all [readVisitee, Visitee.json, Reserved.json, has, key]
    | extensions x => have := read_Extensions x; simp_all [readVisitee, Visitee.json, Extensions.json, has, key]
    | rpc x => have := read_RPC x; simp_all [readVisitee, Visitee.json, RPC.json, has, key]
    | message x =>
      have hb := hb x.messageBody (depth_obj (k := c!"MessageBody") (by simp))
      simp [readVisitee, readMessage, Visitee.json, has, key, asStr, hb, slice_Comment, ptr_Comment, read_Meta]
    | enum x =>
      have hb := hb x.enumBody (depth_obj (k := c!"EnumBody") (by simp))
      simp [readVisitee, readEnum, Visitee.json, has, key, asStr, hb, slice_Comment, ptr_Comment, read_Meta]
    | service x =>
      have hb := hb x.serviceBody (depth_obj (k := c!"ServiceBody") (by simp))
      simp [readVisitee, readService, Visitee.json, has, key, asStr, hb, slice_Comment, ptr_Comment, read_Meta]
    | extend x =>
      have hb := hb x.extendBody (depth_obj (k := c!"ExtendBody") (by simp))
      simp [readVisitee, readExtend, Visitee.json, has, key, asStr, hb, slice_Comment, ptr_Comment, read_Meta]
    | groupField x =>
      have hb := hb x.messageBody (depth_obj (k := c!"MessageBody") (by simp))
      simp [readVisitee, readGroupField, Visitee.json, has, key, asStr, asBool, hb, slice_Comment, ptr_Comment, read_Meta]

theorem read_body {n : Nat} (vs : List Visitee) (h : (bodyJson vs).depth ≤ n) :
    sliceOf (readVisitee n) (bodyJson vs) = some vs := by
  rw [bodyJson_slice] at h ⊢
  exact sliceOf_slice fun x hx => read_Visitee n x (by have := slice_depth Visitee.json hx; omega)

theorem read_Proto (x : Proto) : readProto x.json = some x := by
  have hb := read_body x.protoBody (n := x.json.depth)
    (Nat.le_of_lt (depth_obj (k := c!"ProtoBody") (by simp)))
  unfold readProto
  generalize x.json.depth = d at hb ⊢
  simp [Proto.json, readProtoMeta, key, asStr, hb, ptr_Syntax, ptr_Edition]

theorem read_Group {n : Nat} (x : GroupField) (h : (Visitee.json (.groupField x)).depth ≤ n) :
    readGroupField (readVisitee n) (Visitee.json (.groupField x)) = some x := by
  have hb := read_body x.messageBody (n := n) (Nat.le_of_lt (Nat.lt_of_lt_of_le (depth_obj (k := c!"MessageBody") (by simp)) h))
  simp [readGroupField, Visitee.json, key, asStr, asBool, hb, slice_Comment, ptr_Comment, read_Meta]

theorem read_Extend {n : Nat} (x : Extend) (h : (Visitee.json (.extend x)).depth ≤ n) :
    readExtend (readVisitee n) (Visitee.json (.extend x)) = some x := by
  have hb := read_body x.extendBody (n := n) (Nat.le_of_lt (Nat.lt_of_lt_of_le (depth_obj (k := c!"ExtendBody") (by simp)) h))
  simp [readExtend, Visitee.json, key, asStr, hb, slice_Comment, ptr_Comment, read_Meta]

theorem messageItems_map : ∀ vs : List UMessage, messageItems vs = vs.map UMessage.json
  | [] => rfl
  | v :: vs => by simp [messageItems, messageItems_map vs]

theorem messagesJson_slice (vs : List UMessage) : messagesJson vs = slice UMessage.json vs := by
  cases vs with
  | nil => rfl
  | cons v vs => simp [messagesJson, slice, messageItems_map]

theorem read_UMessage (d : Nat) : ∀ (n : Nat) (m : UMessage), m.json.depth < n → m.json.depth ≤ d →
    readUMessage (readVisitee d) n m.json = some m := by
  intro n
  induction n with
  | zero => intro m h; omega
  | succ n ih =>
    rintro ⟨nm, ⟨fs, es, ms, os, ofs, mps, gs, rs, xs, em, ext⟩, cs, ic, icl, i⟩ h hd
    rw [UMessage.json] at h hd
    have hbody := depth_obj (k := c!"MessageBody") (fs := [(c!"MessageName", str nm),
      (c!"MessageBody", obj [(c!"Fields", slice Field.json fs), (c!"Enums", slice UEnum.json es),
        (c!"Messages", messagesJson ms), (c!"Options", slice OptionStmt.json os), (c!"Oneofs", slice Oneof.json ofs),
        (c!"Maps", slice MapField.json mps), (c!"Groups", slice (fun g => Visitee.json (.groupField g)) gs),
        (c!"Reserves", slice Reserved.json rs), (c!"Extends", slice (fun e => Visitee.json (.extend e)) xs),
        (c!"EmptyStatements", slice EmptyStatement.json em), (c!"Extensions", slice Extensions.json ext)]),
      (c!"Comments", slice Comment.json cs), (c!"InlineComment", ptr Comment.json ic),
      (c!"InlineCommentBehindLeftCurly", ptr Comment.json icl), (c!"Meta", i.json)]) (List.mem_cons_of_mem _ (List.mem_cons_self ..))
    have hms : sliceOf (readUMessage (readVisitee d) n) (messagesJson ms) = some ms := by
      have h1 := Nat.lt_of_le_of_lt (Nat.le_of_lt (Nat.lt_trans (depth_obj (k := c!"Messages") (x := messagesJson ms) (by simp)) hbody)) h
      have h2 := Nat.le_trans (Nat.le_of_lt (Nat.lt_trans (depth_obj (k := c!"Messages") (x := messagesJson ms) (by simp)) hbody)) hd
      rw [messagesJson_slice] at h1 h2 ⊢
      exact sliceOf_slice fun x hx => by
        have := slice_depth UMessage.json hx
        exact ih x (by omega) (by omega)
    have hgs : sliceOf (readGroupField (readVisitee d)) (slice (fun g => Visitee.json (.groupField g)) gs) = some gs := by
      have h2 := Nat.le_trans (Nat.le_of_lt (Nat.lt_trans (depth_obj (k := c!"Groups")
        (x := slice (fun g => Visitee.json (.groupField g)) gs) (by simp)) hbody)) hd
      exact sliceOf_slice fun x hx => by
        have := slice_depth (fun g => Visitee.json (.groupField g)) hx
        exact read_Group x (by omega)
    have hxs : sliceOf (readExtend (readVisitee d)) (slice (fun e => Visitee.json (.extend e)) xs) = some xs := by
      have h2 := Nat.le_trans (Nat.le_of_lt (Nat.lt_trans (depth_obj (k := c!"Extends")
        (x := slice (fun g => Visitee.json (.extend g)) xs) (by simp)) hbody)) hd
      exact sliceOf_slice fun x hx => by
        have := slice_depth (fun g => Visitee.json (.extend g)) hx
        exact read_Extend x (by omega)
    simp [readUMessage, readMessageBody, UMessage.json, key, asStr, slice_Comment, ptr_Comment, read_Meta, hms, hgs, hxs,
      slice_Field, slice_UEnum, slice_OptionStmt, slice_Oneof, slice_MapField, slice_Reserved, slice_EmptyStatement,
      slice_Extensions]

theorem read_ProtoBody (x : ProtoBody) : readProtoBody x.json = some x := by
  have hm : sliceOf (readUMessage (readVisitee x.json.depth) x.json.depth) (messagesJson x.messages) = some x.messages := by
    have h1 : (messagesJson x.messages).depth < x.json.depth := depth_obj (k := c!"Messages") (by simp)
    rw [messagesJson_slice] at h1 ⊢
    exact sliceOf_slice fun y hy => by
      have := slice_depth UMessage.json hy
      exact read_UMessage _ _ y (by omega) (by omega)
  unfold readProtoBody
  generalize x.json.depth = d at hm ⊢
  simp [ProtoBody.json, key, hm, slice_Import, slice_Package, slice_OptionStmt, slice_UExtend, slice_UEnum,
    slice_UService, slice_EmptyStatement]

theorem read_UProto (x : UProto) : readUProto x.json = some x := by
  simp [readUProto, UProto.json, key, ptr_Syntax, read_ProtoBody]

end Verif.Proofs.Undump
