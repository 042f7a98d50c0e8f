import Verif.Proofs.SimBlock
import Verif.Spec.Relate

set_option backward.isDefEq.respectTransparency false
set_option backward.dsimp.instances true

/-!
# Alike trees that are equal, and runs from the start
-/

namespace Verif

open Spec

/-! ## Positions that are equal -/

section
variable {π : Position → Position → Prop} (hπ : ∀ p q, π p q → p = q)
include hπ

theorem Spec.AlikeMeta.eq {a b : Meta} (h : AlikeMeta π a b) : a = b := by
  cases a; cases b; obtain ⟨h1, h2⟩ := h
  simp only at h1 h2
  rw [hπ _ _ h1, hπ _ _ h2]

theorem Spec.AlikeComment.eq {a b : Comment} (h : AlikeComment π a b) : a = b := by
  cases a; cases b; obtain ⟨h1, h2⟩ := h
  have h2 := h2.eq hπ
  simp only at h1 h2
  rw [h1, h2]
omit hπ

theorem alikeOpt_eq {α : Type} {R : α → α → Prop} (hR : ∀ a b, R a b → a = b) {a b : Option α}
    (h : AlikeOpt R a b) : a = b := by
  cases h with
  | none => rfl
  | some h => rw [hR _ _ h]

theorem alikeList_eq {α : Type} {R : α → α → Prop} (hR : ∀ a b, R a b → a = b) {a b : List α}
    (h : AlikeList R a b) : a = b := by
  induction h with
  | nil => rfl
  | cons h _ ih => rw [hR _ _ h, ih]
include hπ

theorem alikeCs_eq {a b : List Comment} (h : AlikeList (AlikeComment π) a b) : a = b :=
  alikeList_eq (fun _ _ h => h.eq hπ) h
theorem alikeCo_eq {a b : Option Comment} (h : AlikeOpt (AlikeComment π) a b) : a = b :=
  alikeOpt_eq (fun _ _ h => h.eq hπ) h

theorem Spec.AlikeImport.eq {a b : Import} (h : AlikeImport π a b) : a = b := by
  have := alikeCs_eq hπ h.comments
  have := alikeCo_eq hπ h.inlineComment
  have := h.info.eq hπ
  cases a; cases b; cases h; simp_all
theorem Spec.AlikeSyntax.eq {a b : Syntax} (h : AlikeSyntax π a b) : a = b := by
  have := alikeCs_eq hπ h.comments
  have := alikeCo_eq hπ h.inlineComment
  have := h.info.eq hπ
  cases a; cases b; cases h; simp_all
theorem Spec.AlikeEdition.eq {a b : Edition} (h : AlikeEdition π a b) : a = b := by
  have := alikeCs_eq hπ h.comments
  have := alikeCo_eq hπ h.inlineComment
  have := h.info.eq hπ
  cases a; cases b; cases h; simp_all
theorem Spec.AlikePackage.eq {a b : Package} (h : AlikePackage π a b) : a = b := by
  have := alikeCs_eq hπ h.comments
  have := alikeCo_eq hπ h.inlineComment
  have := h.info.eq hπ
  cases a; cases b; cases h; simp_all
theorem Spec.AlikeOption.eq {a b : OptionStmt} (h : AlikeOption π a b) : a = b := by
  have := alikeCs_eq hπ h.comments
  have := alikeCo_eq hπ h.inlineComment
  have := h.info.eq hπ
  cases a; cases b; cases h; simp_all
theorem Spec.AlikeEmpty.eq {a b : EmptyStatement} (h : AlikeEmpty π a b) : a = b := by
  have := alikeCo_eq hπ h.inlineComment
  cases a; cases b; cases h; simp_all
theorem Spec.AlikeField.eq {a b : Field} (h : AlikeField π a b) : a = b := by
  have := alikeCs_eq hπ h.comments
  have := alikeCo_eq hπ h.inlineComment
  have := h.info.eq hπ
  cases a; cases b; cases h; simp_all
theorem Spec.AlikeMapField.eq {a b : MapField} (h : AlikeMapField π a b) : a = b := by
  have := alikeCs_eq hπ h.comments
  have := alikeCo_eq hπ h.inlineComment
  have := h.info.eq hπ
  cases a; cases b; cases h; simp_all
theorem Spec.AlikeOneofField.eq {a b : OneofField} (h : AlikeOneofField π a b) : a = b := by
  have := alikeCs_eq hπ h.comments
  have := alikeCo_eq hπ h.inlineComment
  have := h.info.eq hπ
  cases a; cases b; cases h; simp_all
theorem Spec.AlikeEnumField.eq {a b : EnumField} (h : AlikeEnumField π a b) : a = b := by
  have := alikeCs_eq hπ h.comments
  have := alikeCo_eq hπ h.inlineComment
  have := h.info.eq hπ
  cases a; cases b; cases h; simp_all
theorem Spec.AlikeReserved.eq {a b : Reserved} (h : AlikeReserved π a b) : a = b := by
  have := alikeCs_eq hπ h.comments
  have := alikeCo_eq hπ h.inlineComment
  have := h.info.eq hπ
  cases a; cases b; cases h; simp_all
theorem Spec.AlikeDeclaration.eq {a b : Declaration} (h : AlikeDeclaration π a b) : a = b := by
  have := alikeCs_eq hπ h.comments
  have := alikeCo_eq hπ h.inlineComment
  have := alikeCo_eq hπ h.inlineCommentBehindLeftCurly
  have := h.info.eq hπ
  cases a; cases b; cases h; simp_all
theorem Spec.AlikeOneof.eq {a b : Oneof} (h : AlikeOneof π a b) : a = b := by
  have := alikeList_eq (fun _ _ h => Spec.AlikeOneofField.eq hπ h) h.oneofFields
  have := alikeList_eq (fun _ _ h => Spec.AlikeOption.eq hπ h) h.options
  have := alikeCs_eq hπ h.comments
  have := alikeCo_eq hπ h.inlineComment
  have := alikeCo_eq hπ h.inlineCommentBehindLeftCurly
  have := h.info.eq hπ
  cases a; cases b; cases h; simp_all
theorem Spec.AlikeExtensions.eq {a b : Extensions} (h : AlikeExtensions π a b) : a = b := by
  have := alikeList_eq (fun _ _ h => Spec.AlikeDeclaration.eq hπ h) h.declarations
  have := alikeCs_eq hπ h.comments
  have := alikeCo_eq hπ h.inlineComment
  have := alikeCo_eq hπ h.inlineCommentBehindLeftSquare
  have := h.info.eq hπ
  cases a; cases b; cases h; simp_all
theorem Spec.AlikeRPCMessage.eq {a b : RPCMessage} (h : AlikeRPCMessage π a b) : a = b := by
  have := h.info.eq hπ
  cases a; cases b; cases h; simp_all
theorem Spec.AlikeRPC.eq {a b : RPC} (h : AlikeRPC π a b) : a = b := by
  have := h.rpcRequest.eq hπ
  have := h.rpcResponse.eq hπ
  have := alikeList_eq (fun _ _ h => Spec.AlikeOption.eq hπ h) h.options
  have := alikeCs_eq hπ h.comments
  have := alikeCs_eq hπ h.embeddedComments
  have := alikeCo_eq hπ h.inlineComment
  have := alikeCo_eq hπ h.inlineCommentBehindLeftCurly
  have := h.info.eq hπ
  cases a; cases b; cases h; simp_all

theorem Spec.AlikeErr.eq {a b : Err} (h : AlikeErr π a b) : a = b := by
  induction h with
  | rune e c h => rw [hπ _ _ h]
  | text e t h => rw [hπ _ _ h]
  | token e t k h => rw [hπ _ _ h]
  | pair _ _ ih1 ih2 => rw [ih1, ih2]

variable {k : Coms}

mutual
theorem alikeV_drop : {a b : Visitee} → AlikeV π k a b → dropComments a = dropComments b
  | _, _, .nil => rfl
  | _, _, .comment _ h => by rw [h.eq hπ]
  | _, _, .importStmt h => by rw [h.eq hπ]
  | _, _, .package h => by rw [h.eq hπ]
  | _, _, .option h => by rw [h.eq hπ]
  | _, _, .emptyStatement h => by rw [h.eq hπ]
  | _, _, .field h => by rw [h.eq hπ]
  | _, _, .enumField h => by rw [h.eq hπ]
  | _, _, .oneof h => by rw [h.eq hπ]
  | _, _, .mapField h => by rw [h.eq hπ]
  | _, _, .reserved h => by rw [h.eq hπ]
  | _, _, .extensions h => by rw [h.eq hπ]
  | _, _, .rpc h => by rw [h.eq hπ]
  | _, _, .message (a := a) (b := b) h hb => by
    have hb := alikeB_drop hb
    have := alikeCs_eq hπ h.comments
    have := alikeCo_eq hπ h.inlineComment
    have := alikeCo_eq hπ h.inlineCommentBehindLeftCurly
    have := h.info.eq hπ
    cases a; cases b; cases h; simp_all [dropComments]
  | _, _, .groupField (a := a) (b := b) h hb => by
    have hb := alikeB_drop hb
    have := alikeCs_eq hπ h.comments
    have := alikeCo_eq hπ h.inlineComment
    have := alikeCo_eq hπ h.inlineCommentBehindLeftCurly
    have := h.info.eq hπ
    cases a; cases b; cases h; simp_all [dropComments]
  | _, _, .enum (a := a) (b := b) h hb => by
    have hb := alikeB_drop hb
    have := alikeCs_eq hπ h.comments
    have := alikeCo_eq hπ h.inlineComment
    have := alikeCo_eq hπ h.inlineCommentBehindLeftCurly
    have := h.info.eq hπ
    cases a; cases b; cases h; simp_all [dropComments]
  | _, _, .extend (a := a) (b := b) h hb => by
    have hb := alikeB_drop hb
    have := alikeCs_eq hπ h.comments
    have := alikeCo_eq hπ h.inlineComment
    have := alikeCo_eq hπ h.inlineCommentBehindLeftCurly
    have := h.info.eq hπ
    cases a; cases b; cases h; simp_all [dropComments]
  | _, _, .service (a := a) (b := b) h hb => by
    have hb := alikeB_drop hb
    have := alikeCs_eq hπ h.comments
    have := alikeCo_eq hπ h.inlineComment
    have := alikeCo_eq hπ h.inlineCommentBehindLeftCurly
    have := h.info.eq hπ
    cases a; cases b; cases h; simp_all [dropComments]

theorem alikeB_drop : {as bs : List Visitee} → AlikeB π k as bs → dropAll as = dropAll bs
  | _, _, .nil => rfl
  | _, _, .cons (as := as) (bs := bs) h hs => by
    have hs := alikeB_drop hs
    have h' := alikeV_drop h
    cases h <;> simp_all [dropAll]
  | _, _, .left _ hs => by
    have hs := alikeB_drop hs
    simp_all [dropAll]
  | _, _, .right _ hs => by
    have hs := alikeB_drop hs
    simp_all [dropAll]
end

end

/-! ## Bodies without comments -/

section
variable {π : Position → Position → Prop}

mutual
theorem alikeV_none : {a b : Visitee} → AlikeV π .none a b → dropComments a = a
  | _, _, .nil => by simp [dropComments]
  | _, _, .comment h _ => absurd rfl h
  | _, _, .importStmt h => by simp [dropComments]
  | _, _, .package h => by simp [dropComments]
  | _, _, .option h => by simp [dropComments]
  | _, _, .emptyStatement h => by simp [dropComments]
  | _, _, .field h => by simp [dropComments]
  | _, _, .enumField h => by simp [dropComments]
  | _, _, .oneof h => by simp [dropComments]
  | _, _, .mapField h => by simp [dropComments]
  | _, _, .reserved h => by simp [dropComments]
  | _, _, .extensions h => by simp [dropComments]
  | _, _, .rpc h => by simp [dropComments]
  | _, _, .message (a := a) (b := b) h hb => by
    have hb := alikeB_none hb
    cases a; simp_all [dropComments]
  | _, _, .groupField (a := a) (b := b) h hb => by
    have hb := alikeB_none hb
    cases a; simp_all [dropComments]
  | _, _, .enum (a := a) (b := b) h hb => by
    have hb := alikeB_none hb
    cases a; simp_all [dropComments]
  | _, _, .extend (a := a) (b := b) h hb => by
    have hb := alikeB_none hb
    cases a; simp_all [dropComments]
  | _, _, .service (a := a) (b := b) h hb => by
    have hb := alikeB_none hb
    cases a; simp_all [dropComments]

theorem alikeB_none : {as bs : List Visitee} → AlikeB π .none as bs → dropAll as = as
  | _, _, .nil => rfl
  | _, _, .cons (as := as) (bs := bs) h hs => by
    have hs := alikeB_none hs
    have h' := alikeV_none h
    cases h <;> simp_all [dropAll]
  | _, _, .left h _ => by simp at h
  | _, _, .right h _ => by simp at h
end

end

section
variable {π : Position → Position → Prop} (hπ : ∀ p q, π p q → p = q)
include hπ

mutual
theorem alikeV_both : {a b : Visitee} → AlikeV π .both a b → a = b
  | _, _, .nil => rfl
  | _, _, .comment _ h => by rw [h.eq hπ]
  | _, _, .importStmt h => by rw [h.eq hπ]
  | _, _, .package h => by rw [h.eq hπ]
  | _, _, .option h => by rw [h.eq hπ]
  | _, _, .emptyStatement h => by rw [h.eq hπ]
  | _, _, .field h => by rw [h.eq hπ]
  | _, _, .enumField h => by rw [h.eq hπ]
  | _, _, .oneof h => by rw [h.eq hπ]
  | _, _, .mapField h => by rw [h.eq hπ]
  | _, _, .reserved h => by rw [h.eq hπ]
  | _, _, .extensions h => by rw [h.eq hπ]
  | _, _, .rpc h => by rw [h.eq hπ]
  | _, _, .message (a := a) (b := b) h hb => by
    have hb := alikeB_both hb
    have := alikeCs_eq hπ h.comments
    have := alikeCo_eq hπ h.inlineComment
    have := alikeCo_eq hπ h.inlineCommentBehindLeftCurly
    have := h.info.eq hπ
    cases a; cases b; cases h; simp_all
  | _, _, .groupField (a := a) (b := b) h hb => by
    have hb := alikeB_both hb
    have := alikeCs_eq hπ h.comments
    have := alikeCo_eq hπ h.inlineComment
    have := alikeCo_eq hπ h.inlineCommentBehindLeftCurly
    have := h.info.eq hπ
    cases a; cases b; cases h; simp_all
  | _, _, .enum (a := a) (b := b) h hb => by
    have hb := alikeB_both hb
    have := alikeCs_eq hπ h.comments
    have := alikeCo_eq hπ h.inlineComment
    have := alikeCo_eq hπ h.inlineCommentBehindLeftCurly
    have := h.info.eq hπ
    cases a; cases b; cases h; simp_all
  | _, _, .extend (a := a) (b := b) h hb => by
    have hb := alikeB_both hb
    have := alikeCs_eq hπ h.comments
    have := alikeCo_eq hπ h.inlineComment
    have := alikeCo_eq hπ h.inlineCommentBehindLeftCurly
    have := h.info.eq hπ
    cases a; cases b; cases h; simp_all
  | _, _, .service (a := a) (b := b) h hb => by
    have hb := alikeB_both hb
    have := alikeCs_eq hπ h.comments
    have := alikeCo_eq hπ h.inlineComment
    have := alikeCo_eq hπ h.inlineCommentBehindLeftCurly
    have := h.info.eq hπ
    cases a; cases b; cases h; simp_all

theorem alikeB_both : {as bs : List Visitee} → AlikeB π .both as bs → as = bs
  | _, _, .nil => rfl
  | _, _, .cons h hs => by rw [alikeV_both h, alikeB_both hs]
  | _, _, .left h _ => by simp at h
  | _, _, .right h _ => by simp at h
end

theorem alikeProto_drop {k : Coms} {a b : Proto} (h : AlikeProto π k a b) : dropProto a = dropProto b := by
  have h1 := alikeOpt_eq (fun _ _ h => Spec.AlikeSyntax.eq hπ h) h.syntax_
  have h2 := alikeOpt_eq (fun _ _ h => Spec.AlikeEdition.eq hπ h) h.edition
  have h3 := alikeB_drop hπ h.protoBody
  obtain ⟨p, q, h4, h5, h6⟩ := h.metaFilename
  cases a; cases b
  simp only [dropProto] at *
  rw [h1, h2, h3, h5, h6, hπ _ _ h4]

theorem alikeProto_both {a b : Proto} (h : AlikeProto π .both a b) : a = b := by
  have h1 := alikeOpt_eq (fun _ _ h => Spec.AlikeSyntax.eq hπ h) h.syntax_
  have h2 := alikeOpt_eq (fun _ _ h => Spec.AlikeEdition.eq hπ h) h.edition
  have h3 := alikeB_both hπ h.protoBody
  obtain ⟨p, q, h4, h5, h6⟩ := h.metaFilename
  cases a; cases b
  simp only at *
  rw [h1, h2, h3, h5, h6, hπ _ _ h4]
end

/-! ## Runs from the start -/

open Lexer Parser

theorem bind_assoc' {σ ε α β γ : Type} (m : M σ ε α) (f : α → M σ ε β) (g : β → M σ ε γ) :
    M.bind (M.bind m f) g = M.bind m (fun a => M.bind (f a) g) := by
  funext s
  unfold M.bind
  cases m s <;> rfl

/-- The position of the lexer at the start is never used. -/
theorem proto_pos (cfg : Cfg) (l : Lexer) (Q : SPos) :
    Outcome.ofRes (parseProto cfg l) = Outcome.ofRes (parseProto cfg { l with pos := Q }) := by
  have e : ∃ f : P Proto, parseProto cfg = (nextCur >>= fun _ => f) :=
    ⟨_, bind_assoc' nextCur _ _⟩
  obtain ⟨f, e⟩ := e
  rw [e]
  show Outcome.ofRes (M.bind nextCur _ l) = Outcome.ofRes (M.bind nextCur _ { l with pos := Q })
  unfold M.bind nextCur
  simp only
  cases Scanner.scan l.scanner with
  | ok a s => rfl
  | err e s => rfl
  | halt h => cases h <;> rfl

theorem sim_bom {ρ : Link} : SimP ρ Eq parseBOM parseBOM := by unfold parseBOM; sim

theorem sim_proto {ρ : Link} {k : Coms} {p b b' : Bool} {n n' : Nat}
    (hb : (b = b' ∧ (b = true → k ≠ .none)) ∨ k = .either) (hn : n ≤ n') (kp : ρ.keep) :
    SimP ρ (AlikeProto ρ.at k) (parseProto ⟨p, b, n⟩) (parseProto ⟨p, b', n'⟩) :=
  sim_bom.bind fun _ _ _ => sim_parseComments.bind fun _ _ hc => sim_protoRest hb hn kp hc

theorem outcome_of_sim {α : Type} {ρ : Link} {R : α → α → Prop} {r r' : Res Lexer Err α}
    (h : SimRes (RLexer ρ) (AlikeErr ρ.at) R r r') :
    Outcome.ofRes r = .more ∨ OutcomeRel R (AlikeErr ρ.at) (Outcome.ofRes r) (Outcome.ofRes r') := by
  cases r with
  | ok a s =>
    cases r' with
    | ok b t => exact .inr (.ok h.1)
    | err e t => exact h.elim
    | halt h' => exact h.elim
  | err e s =>
    cases r' with
    | ok b t => exact h.elim
    | err e t => exact .inr (.error h.1)
    | halt h' => exact h.elim
  | halt h' =>
    cases h' with
    | fuel => exact .inl rfl
    | panic =>
      cases r' with
      | ok b t => exact h.elim
      | err e t => exact h.elim
      | halt h' =>
        cases h' with
        | panic => exact .inr .panic
        | fuel => exact h.elim

theorem alike_parse {ρ : Link} {k : Coms} {c c' : ParseConfig} {n n' : Nat} {input : Str}
    (hp : c.permissive = c'.permissive)
    (hb : (c.bodyIncludingComments = c'.bodyIncludingComments ∧ (c.bodyIncludingComments = true → k ≠ .none)) ∨
      k = .either) (hn : n ≤ n') (kp : ρ.keep) (hf : ρ.pos (SPos.new c.filename) (SPos.new c'.filename)) :
    Outcome.ofRes (runProto n c input) = .more ∨
      OutcomeRel (AlikeProto ρ.at k) (AlikeErr ρ.at) (Outcome.ofRes (runProto n c input))
        (Outcome.ofRes (runProto n' c' input)) := by
  unfold runProto
  rw [proto_pos _ _ (SPos.new c.filename), proto_pos _ (Lexer.new input c'.filename) (SPos.new c'.filename), ← hp]
  exact outcome_of_sim (sim_proto hb hn kp _ _ ⟨rfl, rfl, rfl, hf, ⟨rfl, rfl, hf, rfl, fun _ => .nil⟩⟩)

/-- Equal positions. -/
def Link.same : Link where
  pos := Eq
  shift := 0
  lines := 0
  keep := True
  advance c h := by rw [h]
  revert c h := by rw [h]
  line h := by rw [h]; simp
  offset h := by rw [h]; simp

theorem Link.same_at {p q : Position} (h : Link.same.at p q) : p = q := by
  obtain ⟨P, Q, h, rfl, rfl⟩ := h
  rw [show P = Q from h]

/-- Positions equal but for the file name. -/
def Link.renamed (f g : Str) : Link where
  pos P Q := P.p.filename = f ∧ Q = { P with p := { P.p with filename := g } }
  shift := 0
  lines := 0
  keep := True
  advance c h := by
    obtain ⟨h1, rfl⟩ := h
    unfold SPos.advance
    by_cases hc : c = '\n'
    · rw [if_pos hc, if_pos hc]; exact ⟨h1, rfl⟩
    · rw [if_neg hc, if_neg hc]; exact ⟨h1, rfl⟩
  revert c h := by
    obtain ⟨h1, rfl⟩ := h
    unfold SPos.revert
    by_cases hc : c = '\n'
    · rw [if_pos hc, if_pos hc]; exact ⟨h1, rfl⟩
    · rw [if_neg hc, if_neg hc]; exact ⟨h1, rfl⟩
  line h := by rw [h.2]; simp
  offset h := by rw [h.2]; simp

theorem Link.renamed_at {f g : Str} {p q : Position} (h : (Link.renamed f g).at p q) : Renamed f g p q := by
  obtain ⟨P, Q, ⟨h1, rfl⟩, rfl, rfl⟩ := h
  exact ⟨h1, rfl⟩

end Verif
