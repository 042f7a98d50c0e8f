import Verif.Props.Unordered

/-!
# The errors of the unordered interpretation (C60)
-/

set_option backward.isDefEq.respectTransparency false
set_option backward.dsimp.instances true

namespace Verif.Props
open Spec Unordered

theorem enumBodyLoop_first {xs : List Visitee} : ∀ {b : EnumBody} {e : UErr}, enumBodyLoop xs b = .error e →
    First enumOk "EnumBody" xs e := by
  induction xs with
  | nil => intro b e h; simp [enumBodyLoop, pure, Except.pure] at h
  | cons v xs ih =>
    intro b e h
    cases v <;> simp only [enumBodyLoop] at h <;>
      first
        | exact .skip _ _ _ rfl (ih h)
        | (injection h with h; subst h; exact .here _ _ rfl)

theorem extendBodyLoop_first {xs : List Visitee} : ∀ {b : ExtendBody} {e : UErr}, extendBodyLoop xs b = .error e →
    First extendOk "ExtendBody" xs e := by
  induction xs with
  | nil => intro b e h; simp [extendBodyLoop, pure, Except.pure] at h
  | cons v xs ih =>
    intro b e h
    cases v <;> simp only [extendBodyLoop] at h <;>
      first
        | exact .skip _ _ _ rfl (ih h)
        | (injection h with h; subst h; exact .here _ _ rfl)

theorem serviceBodyLoop_first {xs : List Visitee} : ∀ {b : ServiceBody} {e : UErr}, serviceBodyLoop xs b = .error e →
    First serviceOk "ServiceBody" xs e := by
  induction xs with
  | nil => intro b e h; simp [serviceBodyLoop, pure, Except.pure] at h
  | cons v xs ih =>
    intro b e h
    cases v <;> simp only [serviceBodyLoop] at h <;>
      first
        | exact .skip _ _ _ rfl (ih h)
        | (injection h with h; subst h; exact .here _ _ rfl)

theorem interpretEnum_first {x : Enum} {e : UErr} (h : interpretEnum x = .error e) :
    ∃ e', e = .wrap "Enum" x.enumName e' ∧ First enumOk "EnumBody" x.enumBody e' := by
  unfold interpretEnum at h
  split at h
  · next e' he => injection h with h; exact ⟨e', h.symm, enumBodyLoop_first he⟩
  · simp at h

theorem interpretService_first {x : Service} {e : UErr} (h : interpretService x = .error e) :
    ∃ e', e = .wrap "Service" x.serviceName e' ∧ First serviceOk "ServiceBody" x.serviceBody e' := by
  unfold interpretService at h
  split at h
  · next e' he => injection h with h; exact ⟨e', h.symm, serviceBodyLoop_first he⟩
  · simp at h

theorem interpretExtend_first {x : Extend} {e : UErr} (h : interpretExtend x = .error e) :
    First extendOk "ExtendBody" x.extendBody e := by
  unfold interpretExtend at h
  split at h
  · next e' he => injection h with h; exact h ▸ extendBodyLoop_first he
  · simp at h

theorem enum_allowed {x : Enum} {u : UEnum} (h : interpretEnum x = .ok u) : x.enumBody.all enumOk = true := by
  cases hb : x.enumBody.all enumOk with
  | true => rfl
  | false =>
    obtain ⟨e, he⟩ := (interpretEnum_eq x).2 hb
    rw [he] at h
    simp at h

theorem extend_allowed {x : Extend} {u : UExtend} (h : interpretExtend x = .ok u) : x.extendBody.all extendOk = true := by
  cases hb : x.extendBody.all extendOk with
  | true => rfl
  | false =>
    obtain ⟨e, he⟩ := (interpretExtend_eq x).2 hb
    rw [he] at h
    simp at h

theorem service_allowed {x : Service} {u : UService} (h : interpretService x = .ok u) :
    x.serviceBody.all serviceOk = true := by
  cases hb : x.serviceBody.all serviceOk with
  | true => rfl
  | false =>
    obtain ⟨e, he⟩ := (interpretService_eq x).2 hb
    rw [he] at h
    simp at h

theorem message_allowed {x : Message} {u : UMessage} (h : interpretMessage x = .ok u) :
    messageOk x.messageBody = true := by
  cases hb : messageOk x.messageBody with
  | true => rfl
  | false =>
    obtain ⟨e, he⟩ := (interpretMessage_eq x).2 hb
    rw [he] at h
    simp at h

theorem messageBodyLoop_first : ∀ (xs : List Visitee) (b : MessageBody) (e : UErr), messageBodyLoop xs b = .error e →
    BadMessage xs e
  | [], b, e, h => by simp [messageBodyLoop, pure, Except.pure] at h
  | .message ⟨nm, body, cs, ic, icl, i⟩ :: xs, b, e, h => by
    simp only [messageBodyLoop] at h
    split at h
    · next e' he =>
      injection h with h
      subst h
      exact .message ⟨nm, body, cs, ic, icl, i⟩ _ _ (messageBodyLoop_first body _ _ he)
    · next mb hb =>
      refine .skip _ _ _ ?_ (messageBodyLoop_first xs _ _ h)
      have : messageOk body = true := by
        cases hm : messageOk body with
        | true => rfl
        | false =>
          obtain ⟨e, he⟩ := messageBodyLoop_err body {} hm
          rw [he] at hb
          simp at hb
      simp [messageOk, this]
  | .enum x :: xs, b, e, h => by
    simp only [messageBodyLoop] at h
    split at h
    · next e' he =>
      injection h with h
      subst h
      obtain ⟨e', rfl, h1⟩ := interpretEnum_first he
      exact .enum _ _ _ h1
    · next u hb =>
      exact .skip _ _ _ (by simp only [messageOk, enum_allowed hb]; rfl) (messageBodyLoop_first xs _ _ h)
  | .field x :: xs, b, e, h | .option x :: xs, b, e, h | .oneof x :: xs, b, e, h | .mapField x :: xs, b, e, h
  | .groupField x :: xs, b, e, h | .reserved x :: xs, b, e, h | .extend x :: xs, b, e, h
  | .emptyStatement x :: xs, b, e, h | .extensions x :: xs, b, e, h => by
    simp only [messageBodyLoop] at h
    exact .skip _ _ _ (by simp [messageOk]) (messageBodyLoop_first xs _ _ h)
  | .nil :: xs, b, e, h | .comment _ :: xs, b, e, h | .importStmt _ :: xs, b, e, h | .package _ :: xs, b, e, h
  | .service _ :: xs, b, e, h | .enumField _ :: xs, b, e, h | .rpc _ :: xs, b, e, h => by
    simp only [messageBodyLoop] at h
    injection h with h
    subst h
    exact .here _ _ rfl

theorem protoBodyLoop_first {xs : List Visitee} : ∀ {b : ProtoBody} {e : UErr}, protoBodyLoop xs b = .error e →
    BadProto xs e := by
  induction xs with
  | nil => intro b e h; simp [protoBodyLoop, pure, Except.pure] at h
  | cons v xs ih =>
    intro b e h
    cases v with
    | importStmt t | package t | option t | emptyStatement t => exact .skip _ _ _ rfl (ih h)
    | message t =>
      simp only [protoBodyLoop] at h
      split at h
      · next e' he =>
        injection h with h
        subst h
        unfold interpretMessage at he
        split at he
        · next e'' hb =>
          injection he with he
          subst he
          exact .message _ _ _ (messageBodyLoop_first _ _ _ hb)
        · simp at he
      · next u hu => exact .skip _ _ _ (by simp only [protoOk]; exact message_allowed hu) (ih h)
    | extend t =>
      simp only [protoBodyLoop] at h
      split at h
      · next e' he =>
        injection h with h
        subst h
        exact .extend _ _ _ (interpretExtend_first he)
      · next u hu => exact .skip _ _ _ (by simp only [protoOk]; exact extend_allowed hu) (ih h)
    | enum t =>
      simp only [protoBodyLoop] at h
      split at h
      · next e' he =>
        injection h with h
        subst h
        obtain ⟨e', rfl, h1⟩ := interpretEnum_first he
        exact .enum _ _ _ h1
      · next u hu => exact .skip _ _ _ (by simp only [protoOk]; exact enum_allowed hu) (ih h)
    | service t =>
      simp only [protoBodyLoop] at h
      split at h
      · next e' he =>
        injection h with h
        subst h
        obtain ⟨e', rfl, h1⟩ := interpretService_first he
        exact .service _ _ _ h1
      · next u hu => exact .skip _ _ _ (by simp only [protoOk]; exact service_allowed hu) (ih h)
    | nil | comment t | field t | enumField t | oneof t | mapField t | groupField t | reserved t
    | extensions t | rpc t =>
      simp only [protoBodyLoop] at h
      injection h with h
      subst h
      exact .here _ _ rfl

/-! ## One element is to blame -/

theorem first_unique {ok : Visitee → Bool} {k : String} {xs : List Visitee} {e e' : UErr} (h : First ok k xs e)
    (h' : First ok k xs e') : e = e' := by
  induction h with
  | here v xs h1 =>
    cases h' with
    | here => rfl
    | skip _ _ _ h2 _ => simp [h1] at h2
  | skip v xs e h1 _ ih =>
    cases h' with
    | here _ _ h2 => simp [h1] at h2
    | skip _ _ _ _ h2 => exact ih h2

theorem first_bad {ok : Visitee → Bool} {k : String} {xs : List Visitee} {e : UErr} (h : First ok k xs e) :
    xs.all ok = false := by
  induction h with
  | here v xs h => simp [h]
  | skip v xs e h _ ih => rw [List.all_cons, h, ih]; rfl

theorem messageOk_cons (v : Visitee) (xs : List Visitee) : messageOk (v :: xs) = (messageOk [v] && messageOk xs) := by
  cases v with
  | message x => obtain ⟨nm, body, cs, ic, icl, i⟩ := x; simp [messageOk]
  | _ => simp [messageOk]

theorem badMessage_bad {xs : List Visitee} {e : UErr} (h : BadMessage xs e) : messageOk xs = false := by
  induction h with
  | here v xs h => cases v <;> simp [messageHolds] at h <;> simp [messageOk]
  | enum x xs e h => rw [messageOk_cons]; simp only [messageOk, first_bad h]; rfl
  | message x xs e h ih => obtain ⟨nm, body, cs, ic, icl, i⟩ := x; simp only [messageOk]; rw [ih]; rfl
  | skip v xs e h _ ih => rw [messageOk_cons, ih]; simp

theorem badProto_bad {xs : List Visitee} {e : UErr} (h : BadProto xs e) : xs.all protoOk = false := by
  induction h with
  | here v xs h => cases v <;> simp [protoHolds] at h <;> rfl
  | enum x xs e h => simp only [List.all_cons, protoOk, first_bad h]; rfl
  | extend x xs e h => simp only [List.all_cons, protoOk, first_bad h]; rfl
  | service x xs e h => simp only [List.all_cons, protoOk, first_bad h]; rfl
  | message x xs e h => simp only [List.all_cons, protoOk, badMessage_bad h]; rfl
  | skip v xs e h _ ih => rw [List.all_cons, h, ih]; rfl

theorem badMessage_unique {xs : List Visitee} {e e' : UErr} (h : BadMessage xs e) (h' : BadMessage xs e') : e = e' := by
  induction h generalizing e' with
  | here v xs h1 =>
    cases h' with
    | here => rfl
    | enum | message => simp [messageHolds] at h1
    | skip _ _ _ h2 _ => cases v <;> simp [messageHolds] at h1 <;> simp [messageOk] at h2
  | enum x xs e h1 =>
    cases h' with
    | here _ _ h2 => simp [messageHolds] at h2
    | enum _ _ _ h2 => rw [first_unique h1 h2]
    | skip _ _ _ h2 _ => simp [messageOk, first_bad h1] at h2
  | message x xs e h1 ih =>
    cases h' with
    | here _ _ h2 => simp [messageHolds] at h2
    | message _ _ _ h2 => rw [ih h2]
    | skip _ _ _ h2 _ =>
      obtain ⟨nm, body, cs, ic, icl, i⟩ := x
      simp only [messageOk, Bool.and_true] at h2
      rw [badMessage_bad h1] at h2
      simp at h2
  | skip v xs e h1 _ ih =>
    cases h' with
    | here _ _ h2 => cases v <;> simp [messageHolds] at h2 <;> simp [messageOk] at h1
    | enum _ _ _ h2 => simp [messageOk, first_bad h2] at h1
    | message x _ _ h2 =>
      obtain ⟨nm, body, cs, ic, icl, i⟩ := x
      simp only [messageOk, Bool.and_true] at h1
      rw [badMessage_bad h2] at h1
      simp at h1
    | skip _ _ _ _ h2 => exact ih h2

theorem badProto_unique {xs : List Visitee} {e e' : UErr} (h : BadProto xs e) (h' : BadProto xs e') : e = e' := by
  induction h with
  | here v xs h1 =>
    cases h' with
    | here => rfl
    | enum | message | extend | service => simp [protoHolds] at h1
    | skip _ _ _ h2 _ => cases v <;> simp [protoHolds] at h1 <;> simp [protoOk] at h2
  | enum x xs e h1 =>
    cases h' with
    | here _ _ h2 => simp [protoHolds] at h2
    | enum _ _ _ h2 => rw [first_unique h1 h2]
    | skip _ _ _ h2 _ => simp only [protoOk, first_bad h1] at h2; simp at h2
  | extend x xs e h1 =>
    cases h' with
    | here _ _ h2 => simp [protoHolds] at h2
    | extend _ _ _ h2 => rw [first_unique h1 h2]
    | skip _ _ _ h2 _ => simp only [protoOk, first_bad h1] at h2; simp at h2
  | service x xs e h1 =>
    cases h' with
    | here _ _ h2 => simp [protoHolds] at h2
    | service _ _ _ h2 => rw [first_unique h1 h2]
    | skip _ _ _ h2 _ => simp only [protoOk, first_bad h1] at h2; simp at h2
  | message x xs e h1 =>
    cases h' with
    | here _ _ h2 => simp [protoHolds] at h2
    | message _ _ _ h2 => rw [badMessage_unique h1 h2]
    | skip _ _ _ h2 _ => simp only [protoOk, badMessage_bad h1] at h2; simp at h2
  | skip v xs e h1 _ ih =>
    cases h' with
    | here _ _ h2 => cases v <;> simp [protoHolds] at h2 <;> simp [protoOk] at h1
    | enum _ _ _ h2 => simp only [protoOk, first_bad h2] at h1; simp at h1
    | extend _ _ _ h2 => simp only [protoOk, first_bad h2] at h1; simp at h1
    | service _ _ _ h2 => simp only [protoOk, first_bad h2] at h1; simp at h1
    | message _ _ _ h2 => simp only [protoOk, badMessage_bad h2] at h1; simp at h1
    | skip _ _ _ _ h2 => exact ih h2

/-- C60: the unordered interpretation fails with an error exactly if the error blames the first element that is not
allowed, by the names of the messages, enums and services around it. -/
theorem unordered_blames (p : Proto) (e : UErr) : interpretProto p = .error e ↔ BadProto p.protoBody e := by
  have key : ∀ {e}, interpretProto p = .error e → BadProto p.protoBody e := by
    intro e h
    unfold interpretProto at h
    split at h
    · next e' he => injection h with h; exact h ▸ protoBodyLoop_first he
    · simp at h
  constructor
  · exact key
  · intro h
    obtain ⟨e', he⟩ := (interpretProto_eq p).2 (badProto_bad h)
    rw [he, badProto_unique h (key he)]

/-- An element that is not allowed in an enum of a message, behind a message that is. -/
example : BadProto [.message ⟨c!"A", [], [], none, none, {}⟩,
    .message ⟨c!"M", [.enum { enumName := c!"E", enumBody := [.nil], info := {} }], [], none, none, {}⟩, .nil]
    (.wrap "Message" c!"M" (.wrap "Enum" c!"E" (.invalid "EnumBody" .nil))) :=
  .skip _ _ _ (by simp [protoOk, messageOk]) (.message _ _ _ (.enum _ _ _ (.here _ _ rfl)))

end Verif.Props
