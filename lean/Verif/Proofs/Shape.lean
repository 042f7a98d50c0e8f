import Verif.Spec.Shape
import Verif.Model.Api

/-!
# What kinds of nodes the parsing functions return
-/

set_option backward.isDefEq.respectTransparency false
set_option backward.dsimp.instances true

namespace Verif
open Spec Lexer

/-- Whatever the function returns satisfies `Q`. -/
def Ret {σ ε α : Type} (Q : α → Prop) (m : M σ ε α) : Prop := ∀ s a s', m s = .ok a s' → Q a

section
variable {α β : Type} {Q : α → Prop} {R : β → Prop}

theorem ret_pure {a : α} (h : Q a) : Ret Q (pure a : P α) := by
  intro s a' s' e; cases e; exact h

theorem ret_bind {m : P β} {f : β → P α} (h1 : Ret R m) (h2 : ∀ b, R b → Ret Q (f b)) : Ret Q (m >>= f) := by
  intro s a s' e
  simp only [bind, M.bind] at e
  cases hm : m s with
  | ok b s1 => rw [hm] at e; exact h2 b (h1 _ _ _ hm) _ _ _ e
  | err _ _ => rw [hm] at e; cases e
  | halt _ => rw [hm] at e; cases e

theorem ret_true {m : P β} : Ret (fun _ => True) m := fun _ _ _ _ => trivial

theorem ret_step {m : P β} {f : β → P α} (h2 : ∀ b, Ret Q (f b)) : Ret Q (m >>= f) :=
  ret_bind ret_true (fun b _ => h2 b)

theorem ret_ite {p : Prop} [Decidable p] {a b : P α} (h1 : Ret Q a) (h2 : Ret Q b) :
    Ret Q (if p then a else b) := by
  split
  · exact h1
  · exact h2

theorem ret_stop {h : Halt} : Ret Q (M.stop h : P α) := by intro s a s' e; cases e
theorem ret_throw {e : Err} : Ret Q (M.throw e : P α) := by intro s a s' h; cases h
theorem ret_unexpected {e : String} : Ret Q (Parser.unexpected e : P α) := by intro s a s' h; cases h

theorem ret_attempt {m : P α} (h : Ret Q m) :
    Ret (fun r => ∀ a, r = .ok a → Q a) (M.attempt m) := by
  intro s r s' e a ha
  subst ha
  simp only [M.attempt] at e
  cases hm : m s with
  | ok b s1 => rw [hm] at e; cases e; exact h _ _ _ hm
  | err _ _ => rw [hm] at e; cases e
  | halt _ => rw [hm] at e; cases e
end

namespace Parser

theorem elems_append {b : Bool} {k : Ctx} : ∀ {us vs : List Visitee}, (∀ u ∈ us, Elem b k u) → Elems b k vs →
    Elems b k (us ++ vs)
  | [], _, _, h => h
  | _ :: us, _, hu, h => .stmt _ _ _ (hu _ (by simp)) (elems_append (fun u hm => hu u (by simp [hm])) h)

theorem elems_comments {cfg : Cfg} {k : Ctx} {cs : List Comment} :
    Elems cfg.bodyIncludingComments k (bodyComments cfg cs) := by
  unfold bodyComments
  split
  · next h => exact .done _ _ (by simp [h])
  · exact .done _ [] (fun _ => rfl)

theorem elem_snoc {b : Bool} {k : Ctx} {us : List Visitee} {v : Visitee} (h : ∀ u ∈ us, Elem b k u)
    (hv : Elem b k v) : ∀ u ∈ us ++ [v], Elem b k u := by
  intro u hu
  simp only [List.mem_append, List.mem_singleton] at hu
  rcases hu with hu | rfl
  · exact h _ hu
  · exact hv

/-- What a body parser returns. -/
abbrev RetBody (cfg : Cfg) (k : Ctx) : P Body → Prop :=
  Ret (fun r => Elems cfg.bodyIncludingComments k r.1)

variable {cfg : Cfg}

theorem ret_inline {b : Bool} {k : Ctx} {v : Visitee} (h : Elem b k v) :
    Ret (Elem b k) (maybeScanInlineComment v) := by
  unfold maybeScanInlineComment
  refine ret_step (fun o => ?_)
  cases o with
  | none => exact ret_pure h
  | some c => cases h <;> exact ret_pure (by constructor <;> assumption)

theorem ret_recover {b : Bool} {k : Ctx} {e : Err} (hk : k ≠ .file) :
    Ret (Elem b k) (recoverEmpty e) := by
  unfold recoverEmpty
  refine ret_step (fun _ => ret_step (fun r => ?_))
  cases r with
  | ok _ => exact ret_pure (.empty _ _ hk)
  | error _ => exact ret_throw

theorem ret_close {k : Ctx} {cs : List Comment} {us : List Visitee} {ic : Option Comment}
    (h : ∀ u ∈ us, Elem cfg.bodyIncludingComments k u) : RetBody cfg k (closeBody cfg cs us ic) :=
  ret_step fun _ => ret_step fun _ => ret_pure (elems_append h elems_comments)

theorem ret_enumStmt {cs : List Comment} {t : Token} :
    Ret (Elem cfg.bodyIncludingComments .enum) (enumStmt cfg cs t) := by
  unfold enumStmt
  refine ret_ite (ret_step fun _ => ret_pure (.option _ _ (by decide)))
    (ret_ite (ret_step fun _ => ret_pure (.reserved _ _ (.inr rfl))) (ret_step fun r => ?_))
  cases r with
  | ok _ => exact ret_pure (.enumField _)
  | error _ => exact ret_recover (by decide)

theorem ret_enumLoop {ic : Option Comment} (n : Nat) : ∀ {us : List Visitee},
    (∀ u ∈ us, Elem cfg.bodyIncludingComments .enum u) → RetBody cfg .enum (enumLoop cfg ic n us) := by
  induction n with
  | zero => exact fun _ => ret_stop
  | succ n ih =>
    intro us h
    exact ret_step fun _ => ret_step fun _ => ret_ite (ret_close h)
      (ret_bind ret_enumStmt fun v hv => ret_bind (ret_inline hv) fun v hv => ih (elem_snoc h hv))

theorem ret_parseEnum : Ret (fun x => Elems cfg.bodyIncludingComments .enum x.enumBody) (parseEnum cfg) := by
  unfold parseEnum parseEnumBody
  refine ret_step fun _ => ret_step fun _ => ret_step fun _ => ret_step fun _ => ret_bind
    (ret_step fun _ => ret_step fun _ => ret_step fun _ => ret_enumLoop _ (by simp)) fun r hr => ?_
  exact ret_pure hr

theorem ret_extendStmt {cs : List Comment} :
    Ret (Elem cfg.bodyIncludingComments .extend) (extendStmt cfg cs) := by
  unfold extendStmt
  refine ret_step fun r => ?_
  cases r with
  | ok _ => exact ret_pure (.field _ _ (.inr rfl))
  | error _ => exact ret_recover (by decide)

theorem ret_extendLoop {ic : Option Comment} (n : Nat) : ∀ {us : List Visitee},
    (∀ u ∈ us, Elem cfg.bodyIncludingComments .extend u) → RetBody cfg .extend (extendLoop cfg ic n us) := by
  induction n with
  | zero => exact fun _ => ret_stop
  | succ n ih =>
    intro us h
    exact ret_step fun _ => ret_step fun _ => ret_ite (ret_close h)
      (ret_bind ret_extendStmt fun v hv => ret_bind (ret_inline hv) fun v hv => ih (elem_snoc h hv))

theorem ret_parseExtend :
    Ret (fun x => Elems cfg.bodyIncludingComments .extend x.extendBody) (parseExtend cfg) := by
  unfold parseExtend parseExtendBody
  refine ret_step fun _ => ret_step fun _ => ret_step fun _ => ret_bind
    (ret_step fun _ => ret_step fun _ => ret_step fun _ => ret_step fun _ => ret_ite
      (ret_step fun _ => ret_pure (.done _ [] (fun _ => rfl)))
      (ret_step fun _ => ret_step fun _ => ret_extendLoop _ (by simp))) fun r hr => ?_
  exact ret_pure hr

section
variable {body : P Body}

theorem ret_group (hb : RetBody cfg .message body) :
    Ret (fun x => Elems cfg.bodyIncludingComments .message x.messageBody) (parseGroupFieldWith body) := by
  unfold parseGroupFieldWith
  refine ret_step fun _ => ret_step fun _ => ret_step fun _ => ret_step fun _ => ret_step fun _ =>
    ret_step fun _ => ret_ite ret_unexpected (ret_step fun _ => ret_step fun _ => ret_bind hb fun r hr => ?_)
  exact ret_pure hr

theorem ret_message (hb : RetBody cfg .message body) :
    Ret (fun x => Elems cfg.bodyIncludingComments .message x.messageBody) (parseMessageWith body) := by
  unfold parseMessageWith
  refine ret_step fun _ => ret_step fun _ => ret_step fun _ => ret_step fun _ => ret_bind hb fun r hr => ?_
  exact ret_pure hr

theorem ret_fieldStmt (hb : RetBody cfg .message body) {cs : List Comment} :
    Ret (Elem cfg.bodyIncludingComments .message) (fieldStmt cfg body cs) := by
  unfold fieldStmt
  refine ret_step fun _ => ret_ite (ret_bind (ret_attempt (ret_group hb)) fun r hr => ?_) (ret_step fun r => ?_)
  · cases r with
    | ok x => exact ret_pure (.group _ (hr x rfl))
    | error _ => exact ret_recover (by decide)
  · cases r with
    | ok _ => exact ret_pure (.field _ _ (.inl rfl))
    | error _ => exact ret_recover (by decide)

theorem ret_messageStmt (hb : RetBody cfg .message body) {cs : List Comment} {t : Token} :
    Ret (Elem cfg.bodyIncludingComments .message) (messageStmt cfg body cs t) := by
  unfold messageStmt
  split
  · exact ret_bind ret_parseEnum fun _ h => ret_pure (.enum _ _ (.inr rfl) h)
  · exact ret_bind (ret_message hb) fun _ h => ret_pure (.message _ _ (.inr rfl) h)
  · exact ret_step fun _ => ret_pure (.option _ _ (by decide))
  · exact ret_step fun _ => ret_pure (.oneof _)
  · exact ret_step fun _ => ret_pure (.mapField _)
  · exact ret_bind ret_parseExtend fun _ h => ret_pure (.extend _ _ (.inr rfl) h)
  · exact ret_step fun _ => ret_pure (.reserved _ _ (.inl rfl))
  · exact ret_step fun _ => ret_pure (.extensions _)
  · exact ret_fieldStmt hb

theorem ret_messageLoop (hb : RetBody cfg .message body) {ic : Option Comment} (n : Nat) :
    ∀ {us : List Visitee}, (∀ u ∈ us, Elem cfg.bodyIncludingComments .message u) →
      RetBody cfg .message (messageLoop cfg body ic n us) := by
  induction n with
  | zero => exact fun _ => ret_stop
  | succ n ih =>
    intro us h
    exact ret_step fun _ => ret_step fun _ => ret_ite (ret_close h)
      (ret_bind (ret_messageStmt hb) fun v hv => ret_bind (ret_inline hv) fun v hv => ih (elem_snoc h hv))

theorem ret_messageBody (d : Nat) : RetBody cfg .message (messageBody cfg d) := by
  induction d with
  | zero => exact ret_stop
  | succ d ih =>
    exact ret_step fun _ => ret_step fun _ => ret_step fun _ => ret_step fun _ => ret_ite
      (ret_step fun _ => ret_pure (.done _ [] (fun _ => rfl)))
      (ret_step fun _ => ret_messageLoop ih _ (by simp))
end

theorem ret_serviceStmt {cs : List Comment} {t : Token} :
    Ret (Elem cfg.bodyIncludingComments .service) (serviceStmt cfg cs t) :=
  ret_ite (ret_step fun _ => ret_pure (.option _ _ (by decide)))
    (ret_ite (ret_step fun _ => ret_pure (.rpc _)) (ret_step fun _ => ret_pure (.empty _ _ (by decide))))

theorem ret_serviceLoop {ic : Option Comment} (n : Nat) : ∀ {us : List Visitee},
    (∀ u ∈ us, Elem cfg.bodyIncludingComments .service u) → RetBody cfg .service (serviceLoop cfg ic n us) := by
  induction n with
  | zero => exact fun _ => ret_stop
  | succ n ih =>
    intro us h
    exact ret_step fun _ => ret_step fun _ => ret_ite (ret_close h)
      (ret_bind ret_serviceStmt fun v hv => ret_bind (ret_inline hv) fun v hv => ih (elem_snoc h hv))

theorem ret_parseService :
    Ret (fun x => Elems cfg.bodyIncludingComments .service x.serviceBody) (parseService cfg) := by
  unfold parseService parseServiceBody
  refine ret_step fun _ => ret_step fun _ => ret_step fun _ => ret_step fun _ => ret_bind
    (ret_step fun _ => ret_step fun _ => ret_step fun _ => ret_serviceLoop _ (by simp)) fun r hr => ?_
  exact ret_pure hr

/-- A statement of a file with what is added before it. -/
abbrev FileStmt (b : Bool) (r : List Visitee × Visitee) : Prop :=
  (r.1 = [] ∧ Elem b .file r.2) ∨ r = ([.emptyStatement {}], .nil)

theorem ret_protoStmt {cs : List Comment} {t : Token} :
    Ret (FileStmt cfg.bodyIncludingComments) (protoStmt cfg cs t) := by
  unfold protoStmt
  split
  · exact ret_step fun _ => ret_pure (.inl ⟨rfl, .importStmt _⟩)
  · exact ret_step fun _ => ret_pure (.inl ⟨rfl, .package _⟩)
  · exact ret_step fun _ => ret_pure (.inl ⟨rfl, .option _ _ (by decide)⟩)
  · exact ret_bind (ret_message (ret_messageBody _)) fun _ h => ret_pure (.inl ⟨rfl, .message _ _ (.inl rfl) h⟩)
  · exact ret_bind ret_parseEnum fun _ h => ret_pure (.inl ⟨rfl, .enum _ _ (.inl rfl) h⟩)
  · exact ret_bind ret_parseService fun _ h => ret_pure (.inl ⟨rfl, .service _ h⟩)
  · exact ret_bind ret_parseExtend fun _ h => ret_pure (.inl ⟨rfl, .extend _ _ (.inl rfl) h⟩)
  · exact ret_step fun _ => ret_pure (.inr rfl)

theorem ret_protoLoop (n : Nat) : ∀ {us : List Visitee},
    (∀ vs, Elems cfg.bodyIncludingComments .file vs → Elems cfg.bodyIncludingComments .file (us ++ vs)) →
      Ret (Elems cfg.bodyIncludingComments .file) (protoLoop cfg n us) := by
  induction n with
  | zero => exact fun _ => ret_stop
  | succ n ih =>
    intro us h
    refine ret_step fun _ => ret_step fun _ => ret_ite (ret_pure (h _ elems_comments)) (ret_step fun _ =>
      ret_bind ret_protoStmt fun r hr => ?_)
    obtain ⟨now, v⟩ := r
    rcases hr with ⟨h1, h2⟩ | hr
    · refine ret_bind (ret_inline h2) fun w hw => ih (fun vs hvs => ?_)
      simp only [] at h1
      subst h1
      simpa using h _ (.stmt _ _ _ hw hvs)
    · cases hr
      refine ret_bind (R := fun w => w = .nil) ?_ fun w hw => ih (fun vs hvs => ?_)
      · refine ret_step fun o => ?_
        cases o with
        | none => exact ret_pure rfl
        | some c => exact ret_stop
      · subst hw
        simpa using h _ (.semi _ hvs)

theorem ret_parseProto : Ret (fun p => Elems cfg.bodyIncludingComments .file p.protoBody) (parseProto cfg) := by
  unfold parseProto parseProtoBody
  refine ret_step fun _ => ret_step fun _ => ret_step fun _ => ret_step fun _ =>
    ret_bind (ret_protoLoop _ fun vs h => h) fun r hr => ret_step fun _ => ?_
  exact ret_pure hr

end Parser
end Verif
