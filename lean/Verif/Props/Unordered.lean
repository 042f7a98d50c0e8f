import Verif.Spec.Unordered
import Verif.Props.Visitor

/-!
# Properties of the unordered interpretation (C36, C37)
-/

namespace Verif.Props
open Spec Unordered

/-! ## Enums, extends, services -/

theorem enumBodyLoop_eq (xs : List Visitee) : ∀ b : EnumBody,
    (xs.all enumOk = true → enumBodyLoop xs b = .ok
      { options := b.options ++ xs.filterMap asOption
        enumFields := b.enumFields ++ xs.filterMap asEnumField
        reserveds := b.reserveds ++ xs.filterMap asReserved
        emptyStatements := b.emptyStatements ++ xs.filterMap asEmpty }) ∧
    (xs.all enumOk = false → ∃ e, enumBodyLoop xs b = .error e) := by
  induction xs with
  | nil => intro b; simp [enumBodyLoop, pure, Except.pure]
  | cons x xs ih =>
    intro b
    cases x <;> simp only [List.all_cons, enumOk, Bool.true_and, Bool.false_and, enumBodyLoop,
      Bool.false_eq_true, false_implies, true_and, true_implies]
    all_goals first
      | exact ⟨_, rfl⟩
      | (refine ⟨fun h => ?_, fun h => (ih _).2 h⟩
         rw [(ih _).1 h]
         simp [List.filterMap_cons, asOption, asEnumField, asReserved, asEmpty])

theorem extendBodyLoop_eq (xs : List Visitee) : ∀ b : ExtendBody,
    (xs.all extendOk = true → extendBodyLoop xs b = .ok
      { fields := b.fields ++ xs.filterMap asField
        emptyStatements := b.emptyStatements ++ xs.filterMap asEmpty }) ∧
    (xs.all extendOk = false → ∃ e, extendBodyLoop xs b = .error e) := by
  induction xs with
  | nil => intro b; simp [extendBodyLoop, pure, Except.pure]
  | cons x xs ih =>
    intro b
    cases x <;> simp only [List.all_cons, extendOk, Bool.true_and, Bool.false_and, extendBodyLoop,
      Bool.false_eq_true, false_implies, true_and, true_implies]
    all_goals first
      | exact ⟨_, rfl⟩
      | (refine ⟨fun h => ?_, fun h => (ih _).2 h⟩
         rw [(ih _).1 h]
         simp [List.filterMap_cons, asField, asEmpty])

theorem serviceBodyLoop_eq (xs : List Visitee) : ∀ b : ServiceBody,
    (xs.all serviceOk = true → serviceBodyLoop xs b = .ok
      { options := b.options ++ xs.filterMap asOption
        rpcs := b.rpcs ++ xs.filterMap asRpc }) ∧
    (xs.all serviceOk = false → ∃ e, serviceBodyLoop xs b = .error e) := by
  induction xs with
  | nil => intro b; simp [serviceBodyLoop, pure, Except.pure]
  | cons x xs ih =>
    intro b
    cases x <;> simp only [List.all_cons, serviceOk, Bool.true_and, Bool.false_and, serviceBodyLoop,
      Bool.false_eq_true, false_implies, true_and, true_implies]
    all_goals first
      | exact ⟨_, rfl⟩
      | (refine ⟨fun h => ?_, fun h => (ih _).2 h⟩
         rw [(ih _).1 h]
         simp [List.filterMap_cons, asOption, asRpc])

theorem interpretEnum_eq (x : Enum) :
    (x.enumBody.all enumOk = true → interpretEnum x = .ok (unEnum x)) ∧
    (x.enumBody.all enumOk = false → ∃ e, interpretEnum x = .error e) := by
  constructor
  · intro h
    simp [interpretEnum, (enumBodyLoop_eq x.enumBody {}).1 h, unEnum]
  · intro h
    obtain ⟨e, he⟩ := (enumBodyLoop_eq x.enumBody {}).2 h
    exact ⟨_, by simp only [interpretEnum, he]; rfl⟩

theorem interpretExtend_eq (x : Extend) :
    (x.extendBody.all extendOk = true → interpretExtend x = .ok (unExtend x)) ∧
    (x.extendBody.all extendOk = false → ∃ e, interpretExtend x = .error e) := by
  constructor
  · intro h
    simp [interpretExtend, (extendBodyLoop_eq x.extendBody {}).1 h, unExtend]
  · intro h
    obtain ⟨e, he⟩ := (extendBodyLoop_eq x.extendBody {}).2 h
    exact ⟨_, by simp only [interpretExtend, he]; rfl⟩

theorem interpretService_eq (x : Service) :
    (x.serviceBody.all serviceOk = true → interpretService x = .ok (unService x)) ∧
    (x.serviceBody.all serviceOk = false → ∃ e, interpretService x = .error e) := by
  constructor
  · intro h
    simp [interpretService, (serviceBodyLoop_eq x.serviceBody {}).1 h, unService]
  · intro h
    obtain ⟨e, he⟩ := (serviceBodyLoop_eq x.serviceBody {}).2 h
    exact ⟨_, by simp only [interpretService, he]; rfl⟩

/-! ## Messages -/

/-- A body to which sorted elements are added. -/
def addBody (b : MessageBody) (xs : List Visitee) (nested : List UMessage) : MessageBody where
  fields := b.fields ++ xs.filterMap asField
  enums := b.enums ++ (xs.filterMap asEnum).map unEnum
  messages := b.messages ++ nested
  options := b.options ++ xs.filterMap asOption
  oneofs := b.oneofs ++ xs.filterMap asOneof
  maps := b.maps ++ xs.filterMap asMap
  groups := b.groups ++ xs.filterMap asGroup
  reserves := b.reserves ++ xs.filterMap asReserved
  extends_ := b.extends_ ++ xs.filterMap asExtend
  emptyStatements := b.emptyStatements ++ xs.filterMap asEmpty
  extensions := b.extensions ++ xs.filterMap asExtensions

theorem addBody_nil (xs : List Visitee) (nested : List UMessage) :
    addBody {} xs nested = unBody xs nested := by
  simp [addBody, unBody]

theorem messageBodyLoop_ok : ∀ (xs : List Visitee) (b : MessageBody), messageOk xs = true →
    messageBodyLoop xs b = .ok (addBody b xs (unMessages xs))
  | [], b, _ => by simp [messageBodyLoop, addBody, unMessages, pure, Except.pure]
  | .message ⟨nm, body, cs, ic, icl, i⟩ :: xs, b, h => by
    simp only [messageOk, Bool.and_eq_true] at h
    simp only [messageBodyLoop]
    rw [messageBodyLoop_ok body {} h.1, addBody_nil]
    simp only
    rw [messageBodyLoop_ok xs _ h.2]
    simp [addBody, unMessages, List.filterMap_cons, asField, asEnum, asOption, asOneof, asMap, asGroup, asReserved, asExtend,
      asEmpty, asExtensions]
  | .enum x :: xs, b, h => by
    simp only [messageOk, Bool.and_eq_true] at h
    simp only [messageBodyLoop, (interpretEnum_eq x).1 h.1]
    rw [messageBodyLoop_ok xs _ h.2]
    simp [addBody, unMessages, List.filterMap_cons, asField, asEnum, asOption, asOneof, asMap, asGroup, asReserved, asExtend,
      asEmpty, asExtensions]
  | .field x :: xs, b, h | .option x :: xs, b, h | .oneof x :: xs, b, h | .mapField x :: xs, b, h
  | .groupField x :: xs, b, h | .reserved x :: xs, b, h | .extend x :: xs, b, h
  | .emptyStatement x :: xs, b, h | .extensions x :: xs, b, h => by
    simp only [messageOk] at h
    simp only [messageBodyLoop]
    rw [messageBodyLoop_ok xs _ h]
    simp [addBody, unMessages, List.filterMap_cons, asField, asEnum, asOption, asOneof, asMap, asGroup, asReserved, asExtend,
      asEmpty, asExtensions]
  | .nil :: xs, b, h | .comment _ :: xs, b, h | .importStmt _ :: xs, b, h | .package _ :: xs, b, h
  | .service _ :: xs, b, h | .enumField _ :: xs, b, h | .rpc _ :: xs, b, h => by
    simp [messageOk] at h

theorem messageBodyLoop_err : ∀ (xs : List Visitee) (b : MessageBody), messageOk xs = false →
    ∃ e, messageBodyLoop xs b = .error e
  | [], b, h => by simp [messageOk] at h
  | .message ⟨nm, body, cs, ic, icl, i⟩ :: xs, b, h => by
    simp only [messageBodyLoop]
    cases hb : messageOk body with
    | false =>
      obtain ⟨e, he⟩ := messageBodyLoop_err body {} hb
      exact ⟨_, by rw [he]⟩
    | true =>
      rw [messageBodyLoop_ok body {} hb]
      exact messageBodyLoop_err xs _ (by simpa [messageOk, hb] using h)
  | .enum x :: xs, b, h => by
    simp only [messageBodyLoop]
    cases hb : x.enumBody.all enumOk with
    | false =>
      obtain ⟨e, he⟩ := (interpretEnum_eq x).2 hb
      exact ⟨_, by rw [he]⟩
    | true =>
      rw [(interpretEnum_eq x).1 hb]
      exact messageBodyLoop_err xs _ (by simpa [messageOk, hb] using h)
  | .field x :: xs, b, h | .option x :: xs, b, h | .oneof x :: xs, b, h | .mapField x :: xs, b, h
  | .groupField x :: xs, b, h | .reserved x :: xs, b, h | .extend x :: xs, b, h
  | .emptyStatement x :: xs, b, h | .extensions x :: xs, b, h => by
    simp only [messageOk] at h
    simp only [messageBodyLoop]
    exact messageBodyLoop_err xs _ h
  | .nil :: xs, b, h | .comment _ :: xs, b, h | .importStmt _ :: xs, b, h | .package _ :: xs, b, h
  | .service _ :: xs, b, h | .enumField _ :: xs, b, h | .rpc _ :: xs, b, h => by
    simp only [messageBodyLoop]
    exact ⟨_, rfl⟩

theorem interpretMessage_eq (x : Message) :
    (messageOk x.messageBody = true → interpretMessage x = .ok (.mk x.messageName
      (unBody x.messageBody (unMessages x.messageBody)) x.comments x.inlineComment
      x.inlineCommentBehindLeftCurly x.info)) ∧
    (messageOk x.messageBody = false → ∃ e, interpretMessage x = .error e) := by
  constructor
  · intro h
    simp only [interpretMessage, messageBodyLoop_ok _ {} h, addBody_nil]
  · intro h
    obtain ⟨e, he⟩ := messageBodyLoop_err x.messageBody {} h
    exact ⟨_, by simp only [interpretMessage, he]; rfl⟩

/-! ## Files -/

/-- A body to which sorted elements are added. -/
def addProto (b : ProtoBody) (xs : List Visitee) : ProtoBody where
  imports := b.imports ++ xs.filterMap asImport
  packages := b.packages ++ xs.filterMap asPackage
  options := b.options ++ xs.filterMap asOption
  messages := b.messages ++ unMessages xs
  extends_ := b.extends_ ++ (xs.filterMap asExtend).map unExtend
  enums := b.enums ++ (xs.filterMap asEnum).map unEnum
  services := b.services ++ (xs.filterMap asService).map unService
  emptyStatements := b.emptyStatements ++ xs.filterMap asEmpty

theorem protoBodyLoop_eq (xs : List Visitee) : ∀ b : ProtoBody,
    (xs.all protoOk = true → protoBodyLoop xs b = .ok (addProto b xs)) ∧
    (xs.all protoOk = false → ∃ e, protoBodyLoop xs b = .error e) := by
  induction xs with
  | nil => intro b; simp [protoBodyLoop, addProto, unMessages, pure, Except.pure]
  | cons x xs ih =>
    intro b
    have hok : ∀ b' : ProtoBody, addProto b' xs = addProto b (x :: xs) →
        protoBodyLoop (x :: xs) b = protoBodyLoop xs b' → protoOk x = true →
        ((x :: xs).all protoOk = true → protoBodyLoop (x :: xs) b = .ok (addProto b (x :: xs))) ∧
        ((x :: xs).all protoOk = false → ∃ e, protoBodyLoop (x :: xs) b = .error e) := by
      intro b' h1 h2 h3
      rw [List.all_cons, h3, Bool.true_and, h2]
      exact ⟨fun h => by rw [(ih b').1 h, h1], (ih b').2⟩
    have herr : (∃ e, protoBodyLoop (x :: xs) b = .error e) → protoOk x = false →
        ((x :: xs).all protoOk = true → protoBodyLoop (x :: xs) b = .ok (addProto b (x :: xs))) ∧
        ((x :: xs).all protoOk = false → ∃ e, protoBodyLoop (x :: xs) b = .error e) := by
      intro h1 h2
      rw [List.all_cons, h2, Bool.false_and]
      exact ⟨fun h => by simp at h, fun _ => h1⟩
    cases x with
    | importStmt t | package t | option t | emptyStatement t =>
      exact hok _ (by simp [addProto, unMessages, List.filterMap_cons, asImport, asPackage, asOption, asExtend, asEnum,
        asService, asEmpty]) rfl rfl
    | message t =>
      cases hm : messageOk t.messageBody with
      | true =>
        refine hok _ ?_ (by simp only [protoBodyLoop, (interpretMessage_eq t).1 hm]; rfl)
          (by simpa [protoOk] using hm)
        obtain ⟨nm, body, cs, ic, icl, i⟩ := t
        simp [addProto, unMessages, List.filterMap_cons, asImport, asPackage, asOption, asExtend, asEnum, asService, asEmpty]
      | false =>
        obtain ⟨e, he⟩ := (interpretMessage_eq t).2 hm
        exact herr ⟨e, by simp only [protoBodyLoop, he]⟩ (by simpa [protoOk] using hm)
    | extend t =>
      cases hm : t.extendBody.all extendOk with
      | true =>
        refine hok _ ?_ (by simp only [protoBodyLoop, (interpretExtend_eq t).1 hm]; rfl)
          (by simp only [protoOk, hm])
        simp [addProto, unMessages, List.filterMap_cons, asImport, asPackage, asOption, asExtend, asEnum, asService, asEmpty]
      | false =>
        obtain ⟨e, he⟩ := (interpretExtend_eq t).2 hm
        exact herr ⟨e, by simp only [protoBodyLoop, he]⟩ (by simp only [protoOk, hm])
    | enum t =>
      cases hm : t.enumBody.all enumOk with
      | true =>
        refine hok _ ?_ (by simp only [protoBodyLoop, (interpretEnum_eq t).1 hm]; rfl)
          (by simp only [protoOk, hm])
        simp [addProto, unMessages, List.filterMap_cons, asImport, asPackage, asOption, asExtend, asEnum, asService, asEmpty]
      | false =>
        obtain ⟨e, he⟩ := (interpretEnum_eq t).2 hm
        exact herr ⟨e, by simp only [protoBodyLoop, he]⟩ (by simp only [protoOk, hm])
    | service t =>
      cases hm : t.serviceBody.all serviceOk with
      | true =>
        refine hok _ ?_ (by simp only [protoBodyLoop, (interpretService_eq t).1 hm]; rfl)
          (by simp only [protoOk, hm])
        simp [addProto, unMessages, List.filterMap_cons, asImport, asPackage, asOption, asExtend, asEnum, asService, asEmpty]
      | false =>
        obtain ⟨e, he⟩ := (interpretService_eq t).2 hm
        exact herr ⟨e, by simp only [protoBodyLoop, he]⟩ (by simp only [protoOk, hm])
    | nil | comment t | field t | enumField t | oneof t | mapField t | groupField t | reserved t
    | extensions t | rpc t => exact herr ⟨_, rfl⟩ rfl

theorem interpretProto_eq (p : Proto) :
    (p.protoBody.all protoOk = true → interpretProto p = .ok (unProto p)) ∧
    (p.protoBody.all protoOk = false → ∃ e, interpretProto p = .error e) := by
  constructor
  · intro h
    simp only [interpretProto, (protoBodyLoop_eq p.protoBody {}).1 h]
    simp [addProto, unProto]
  · intro h
    obtain ⟨e, he⟩ := (protoBodyLoop_eq p.protoBody {}).2 h
    exact ⟨_, by simp only [interpretProto, he]; rfl⟩

/-- C36: on success every list of the result is the sub-sequence of the body elements of its kind, at
every level, with names, comments and positions carried over. -/
theorem unordered_sorts {p : Proto} {u : UProto} (h : interpretProto p = .ok u) : u = unProto p := by
  cases hp : p.protoBody.all protoOk with
  | true => rw [(interpretProto_eq p).1 hp] at h; exact (Except.ok.inj h).symm
  | false =>
    obtain ⟨e, he⟩ := (interpretProto_eq p).2 hp
    rw [he] at h
    simp at h

/-- C37: it succeeds exactly on the trees whose bodies hold only elements it knows. -/
theorem unordered_succeeds_iff (p : Proto) :
    (∃ u, interpretProto p = .ok u) ↔ ∀ x ∈ p.protoBody, protoOk x = true := by
  rw [← List.all_eq_true]
  constructor
  · rintro ⟨u, h⟩
    cases hp : p.protoBody.all protoOk with
    | true => rfl
    | false =>
      obtain ⟨e, he⟩ := (interpretProto_eq p).2 hp
      rw [he] at h
      simp at h
  · intro h
    exact ⟨_, (interpretProto_eq p).1 h⟩

/-! ## Nothing is dropped -/

/-- The number of elements of a sorted message body. -/
def bodyCount (b : MessageBody) : Nat :=
  b.fields.length + b.enums.length + b.messages.length + b.options.length + b.oneofs.length +
  b.maps.length + b.groups.length + b.reserves.length + b.extends_.length + b.emptyStatements.length +
  b.extensions.length

theorem unMessages_length (xs : List Visitee) : (unMessages xs).length = (xs.filterMap asMessage).length := by
  induction xs with
  | nil => simp [unMessages]
  | cons x xs ih =>
    cases x with
    | message t => obtain ⟨nm, body, cs, ic, icl, i⟩ := t; simp [unMessages, List.filterMap_cons, asMessage, ih]
    | _ => simp [unMessages, List.filterMap_cons, asMessage, ih]

/-- C36: every element of an allowed message body is in exactly one of the lists. -/
theorem message_nothing_dropped (xs : List Visitee) (h : messageOk xs = true) :
    bodyCount (unBody xs (unMessages xs)) = xs.length := by
  simp only [bodyCount, unBody, unMessages_length, List.length_map]
  induction xs with
  | nil => rfl
  | cons x xs ih =>
    cases x
    case message t =>
      obtain ⟨nm, body, cs, ic, icl, i⟩ := t
      simp only [messageOk, Bool.and_eq_true] at h
      simp only [List.filterMap_cons, asField, asEnum, asMessage, asOption, asOneof, asMap, asGroup,
        asReserved, asExtend, asEmpty, asExtensions, List.length_cons]
      have := ih h.2
      omega
    all_goals simp only [messageOk, Bool.and_eq_true, Bool.false_eq_true] at h
    all_goals
      simp only [List.filterMap_cons, asField, asEnum, asMessage, asOption, asOneof, asMap, asGroup,
        asReserved, asExtend, asEmpty, asExtensions, List.length_cons]
      have := ih (by first | exact h | exact h.2)
      omega

/-- C36: every element of an allowed file is in exactly one of the lists. -/
theorem proto_nothing_dropped (p : Proto) (h : ∀ x ∈ p.protoBody, protoOk x = true) :
    let b := (unProto p).protoBody
    b.imports.length + b.packages.length + b.options.length + b.messages.length + b.extends_.length +
      b.enums.length + b.services.length + b.emptyStatements.length = p.protoBody.length := by
  simp only [unProto, unMessages_length, List.length_map]
  revert h
  generalize p.protoBody = xs
  intro h
  induction xs with
  | nil => rfl
  | cons x xs ih =>
    have h1 := h x (by simp)
    have := ih (fun y hy => h y (by simp [hy]))
    cases x <;> simp only [protoOk, Bool.false_eq_true] at h1
    all_goals
      simp only [List.filterMap_cons, asImport, asPackage, asEnum, asMessage, asOption, asService,
        asExtend, asEmpty, List.length_cons]
      omega

/-- C36: every element of an allowed enum, extend or service body is in exactly one of the lists. -/
theorem small_nothing_dropped (xs : List Visitee) :
    (xs.all enumOk = true → (xs.filterMap asOption).length + (xs.filterMap asEnumField).length +
      (xs.filterMap asReserved).length + (xs.filterMap asEmpty).length = xs.length) ∧
    (xs.all extendOk = true → (xs.filterMap asField).length + (xs.filterMap asEmpty).length = xs.length) ∧
    (xs.all serviceOk = true → (xs.filterMap asOption).length + (xs.filterMap asRpc).length = xs.length) := by
  induction xs with
  | nil => simp
  | cons x xs ih =>
    obtain ⟨h1, h2, h3⟩ := ih
    refine ⟨fun h => ?_, fun h => ?_, fun h => ?_⟩ <;> rw [List.all_cons, Bool.and_eq_true] at h <;>
      obtain ⟨ha, hb⟩ := h <;> cases x <;>
      simp only [enumOk, extendOk, serviceOk, Bool.false_eq_true] at ha
    all_goals
      simp only [List.filterMap_cons, asOption, asEnumField, asReserved, asEmpty, asField, asRpc,
        List.length_cons]
      first | (have := h1 hb; omega) | (have := h2 hb; omega) | (have := h3 hb; omega)

example : (∀ x ∈ sampleProto.protoBody, protoOk x = true) ∧
    ∃ u, interpretProto sampleProto = .ok u ∧ u.protoBody.messages.length = 1 ∧
      u.protoBody.packages.length = 1 := by
  have h : ∀ x ∈ sampleProto.protoBody, protoOk x = true := by
    simp [sampleProto, protoOk, messageOk]
  refine ⟨h, _, (interpretProto_eq _).1 (List.all_eq_true.2 h), ?_, ?_⟩ <;>
    simp [unProto, unMessages, sampleProto, List.filterMap_cons, asPackage]

/-- C37 does not hold as stated for all trees: an empty statement in a service makes it fail. -/
theorem unordered_service_violation : ∃ e, interpretProto
    { sampleProto with protoBody :=
        [.service { serviceName := c!"S", serviceBody := [.emptyStatement {}], info := {} }] } =
    .error e := ⟨_, rfl⟩

end Verif.Props
