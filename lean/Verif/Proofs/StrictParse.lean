import Verif.Proofs.Strict
import Verif.Spec.Strict

/-!
# A strict run beside a permissive one: statements without blocks
-/

set_option backward.isDefEq.respectTransparency false
set_option backward.dsimp.instances true

namespace Verif
open Spec Scanner Lexer Parser

section
variable {α β : Type} {I O : Lexer → Lexer → Prop} {W : Lexer → Prop} {R : α → β → Prop}

theorem ASim.ofF {Q : α → β → Lexer → Lexer → Prop} {m : P α} {m' : P β} (h : ASim Near Q W m m') : ASim Full Q W m m' :=
  h.pre fun _ _ h => h.near

theorem ASim.same {a : α} {b : β} (hr : R a b) (h : ∀ l l', I l l' → O l l') :
    ASim I (Both R O) W (Pure.pure a : P α) (Pure.pure b : P β) := ASim.pure fun _ _ hl => ⟨hr, h _ _ hl⟩
theorem ASim.toN {m : P α} {m' : P β} (h : ASim I (Both R Full) W m m') : ASim I (Both R Near) W m m' :=
  h.post fun _ _ _ _ h => ⟨h.1, h.2.near⟩

theorem asim_tok : ASim Full (Both Eq Full) W tok tok := ⟨fun _ l' h => .inl ⟨_, l', rfl, h.rel.token, h⟩⟩
theorem asim_txt : ASim Full (Both Eq Full) W txt txt := ⟨fun _ l' h => .inl ⟨_, l', rfl, h.rel.text, h⟩⟩
theorem asim_position : ASim Full (Both Eq Full) W position position :=
  ⟨fun _ l' h => .inl ⟨_, l', rfl, h.rel.pos, h⟩⟩
theorem asim_lexEOF : ASim Full (Both Eq Full) W Lexer.isEOF Lexer.isEOF := by
  refine ⟨fun l l' h => .inl ⟨_, l', rfl, ?_, h⟩⟩
  show decide (l.token = .eof) = _
  rw [h.rel.token]
theorem asim_bound : ASim Near (Both Eq Near) W bound bound :=
  ⟨fun l l' h => .inl ⟨l'.scanner.inp.length + 1, l', rfl, by rw [h.inp], h⟩⟩
theorem asim_boundF : ASim Full (Both Eq Full) W bound bound :=
  ⟨fun l l' h => .inl ⟨l'.scanner.inp.length + 1, l', rfl, by rw [h.near.inp], h⟩⟩

theorem asim_unNext : ASim Full (Both Eq Full) W unNext unNext := by
  refine ASim.of_sim sim_unNext ⟨fun l hl => ?_⟩
  obtain ⟨l1, h1, h2, _⟩ := unNext_good hl
  rw [h1]
  exact h2

theorem asim_expect {nx : P Unit} {t : Token} {s : String} (h : ASim I (Both Eq Full) Never nx nx) :
    ASim I (Both Eq Full) W (expect nx t s) (expect nx t s) := by
  unfold expect
  refine h.bind fun _ _ _ => ?_
  refine asim_tok.bind fun k _ e => ?_
  subst e
  exact ASim.ite (ASim.pure fun _ _ h => ⟨rfl, h⟩) ASim.perr

theorem asim_orUnexpected {Q : α → β → Lexer → Lexer → Prop} {m : P α} {m' : P β} {s : String} (h : ASim I Q W m m') :
    ASim I Q W (orUnexpected m s) (orUnexpected m' s) := by
  unfold orUnexpected
  refine h.attempt (fun a b => ASim.pure fun _ _ h => h) (fun a => ⟨fun _ h => h⟩) (fun _ _ => ASim.perr) (fun _ => doom_perr _)

theorem ASim.nearEq {f : P α} {R : α → α → Prop} (h : SimP Link.loose R f f) (hr : ∀ a b, R a b → a = b)
    (hg : Run Good Good Good f) (hf : Fresh f) : ASim Near (Both Eq Full) W f f :=
  (ASim.near h hg hf).val hr

end

theorem rpair_eq {α : Type} {a b : α × SPos} (h : RPair Eq Link.loose.pos a b) : a = b := by
  cases h with
  | mk h1 h2 => rw [h1, show _ = _ from h2]

syntax "fresh" : tactic
macro_rules | `(tactic| fresh) => `(tactic| repeat' first
  | exact fresh_next
  | exact fresh_nextWith _
  | exact fresh_stop _
  | (apply fresh_bound; intro _)
  | apply fresh_attempt
  | apply fresh_expect
  | apply fresh_orUnexpected
  | apply fresh_bind)

/-- A known pair of runs. -/
syntax "alem" : tactic

macro_rules | `(tactic| alem) => `(tactic| exact asim_tok)
macro_rules | `(tactic| alem) => `(tactic| exact asim_txt)
macro_rules | `(tactic| alem) => `(tactic| exact asim_position)
macro_rules | `(tactic| alem) => `(tactic| exact asim_lexEOF)
macro_rules | `(tactic| alem) => `(tactic| exact asim_bound)
macro_rules | `(tactic| alem) => `(tactic| exact asim_boundF)
macro_rules | `(tactic| alem) => `(tactic| exact asim_unNext)
macro_rules | `(tactic| alem) => `(tactic| exact asim_next)
macro_rules | `(tactic| alem) => `(tactic| exact asim_nextWith _)
macro_rules | `(tactic| alem) => `(tactic| (apply asim_expect; alem))
macro_rules | `(tactic| alem) => `(tactic| (apply asim_orUnexpected; alem))

macro "astep" : tactic => `(tactic| with_reducible first
  | alem
  | (apply ASim.ofF; alem))

/-- The last state. -/
macro "afin" : tactic => `(tactic| first
  | assumption
  | exact Full.near (by assumption)
  | exact Full.nearLine (by assumption)
  | exact NearLine.near (by assumption))

macro "asim" : tactic => `(tactic| repeat' with_reducible first
  | exact ASim.stop
  | exact ASim.perr
  | exact ASim.lerr
  | exact ASim.throw
  | astep
  | (refine ASim.bind (by astep) (fun a b h => ?_); first | subst h | skip)
  | apply ASim.ite
  | exact ASim.same rfl (fun l l' hl => by afin)
  | (apply ASim.toN; astep))

variable {W : Lexer → Prop}

/-! ## The same functions in both runs -/

theorem asim_peek : ASim Near (Both Eq Full) W Lexer.peek Lexer.peek := by unfold Lexer.peek; asim
macro_rules | `(tactic| alem) => `(tactic| exact asim_peek)

theorem asim_peekKeyword : ASim Near (Both Eq Full) W peekKeyword peekKeyword := by
  unfold peekKeyword nextKeyword; asim
macro_rules | `(tactic| alem) => `(tactic| exact asim_peekKeyword)

theorem asim_isEOF : ASim Near (Both Eq Full) W Parser.isEOF Parser.isEOF := by unfold Parser.isEOF; asim
macro_rules | `(tactic| alem) => `(tactic| exact asim_isEOF)

theorem asim_consume (t : Token) : ASim Near (Both Eq Full) W (consumeToken t) (consumeToken t) := by
  unfold consumeToken; asim
macro_rules | `(tactic| alem) => `(tactic| exact asim_consume _)

theorem asim_readEmpty : ASim Near (Both Eq Full) W readEmptyStatement readEmptyStatement := by
  unfold readEmptyStatement; asim
macro_rules | `(tactic| alem) => `(tactic| exact asim_readEmpty)

theorem asim_fullIdent : ASim Near (Both Eq Full) W readFullIdent readFullIdent :=
  ASim.nearEq sim_readFullIdent (fun _ _ h => rpair_eq h) (run_goodK fun _ => trk_readFullIdent) (by unfold readFullIdent; fresh)
macro_rules | `(tactic| alem) => `(tactic| exact asim_fullIdent)

theorem asim_messageType : ASim Near (Both Eq Full) W readMessageType readMessageType :=
  ASim.nearEq sim_readMessageType (fun _ _ h => rpair_eq h) (run_goodK fun _ => trk_messageType) (by unfold readMessageType; fresh)
macro_rules | `(tactic| alem) => `(tactic| exact asim_messageType)

theorem asim_comments : ASim Near (Both Eq Full) W parseComments parseComments :=
  ASim.nearEq sim_parseComments (fun _ _ h => alikeCs_eq (fun _ _ h => Link.loose_at h) h) (run_goodK fun _ => trk_parseComments) (by
    unfold parseComments
    refine fresh_bound fun n => ?_
    cases n <;> unfold parseCommentsLoop
    · fresh
    · unfold parseComment; exact fresh_bind (fresh_attempt (fresh_bind (fresh_nextWith _))))
macro_rules | `(tactic| alem) => `(tactic| exact asim_comments)

theorem asim_comment : ASim Near (Both Eq Full) W parseComment parseComment :=
  ASim.nearEq sim_parseComment (fun _ _ h => Spec.AlikeComment.eq (fun _ _ h => Link.loose_at h) h) (run_goodR fun _ => trk_parseComment) (by
    unfold parseComment; exact fresh_bind (fresh_nextWith _))
macro_rules | `(tactic| alem) => `(tactic| exact asim_comment)

theorem run_goodTry {α : Type} {f : P α} (h : Run Good Good Good f) : Run Good Good Good (M.attempt f) := by
  refine ⟨fun l hl => ?_⟩
  have := h.sat l hl
  unfold M.attempt
  revert this
  cases f l with
  | ok a l' => exact id
  | err e l' => exact id
  | halt h => exact fun _ => trivial

theorem ASim.tried {α : Type} {f : P α} {R : α → α → Prop} (h : SimP Link.loose R f f) (hr : ∀ a b, R a b → a = b)
    (hg : Run Good Good Good f) (hf : Fresh f) :
    ASim Near (Both (RExcept (AlikeErr Link.loose.at) Eq) Full) W (M.attempt f) (M.attempt f) :=
  (ASim.near h.attempt (run_goodTry hg) (fresh_attempt hf)).val fun a b h => by
    cases h with
    | ok h => exact .ok (hr _ _ h)
    | error h => exact .error h

theorem asim_tryComment :
    ASim Near (Both (RExcept (AlikeErr Link.loose.at) Eq) Full) W (M.attempt parseComment) (M.attempt parseComment) :=
  ASim.tried sim_parseComment (fun _ _ h => Spec.AlikeComment.eq (fun _ _ h => Link.loose_at h) h)
    (run_goodR fun _ => trk_parseComment) (by unfold parseComment; exact fresh_bind (fresh_nextWith _))

theorem asim_tryEmpty :
    ASim Near (Both (RExcept (AlikeErr Link.loose.at) Eq) Full) W (M.attempt readEmptyStatement)
      (M.attempt readEmptyStatement) :=
  ASim.tried sim_readEmptyStatement (fun _ _ h => h)
    (run_goodR fun _ => trk_readEmpty) (by unfold readEmptyStatement; fresh)

theorem asim_inline : ASim NearLine (Both Eq Full) W parseInlineComment parseInlineComment := by
  unfold parseInlineComment
  refine ASim.bindQ (W := Never)
    (Q := fun p q l l' => p.p.line = q.p.line ∧ Near l l') ?_ (fun p q => ?_) (fun _ => run_never)
  · exact ⟨fun l l' h => .inl ⟨_, l', rfl, h.line, h.near⟩⟩
  by_cases hp : p.p.line = q.p.line
  · refine ASim.pre (I := Near) (fun _ _ h => h.2) ?_
    refine asim_tryComment.bind fun a b h => ?_
    cases h with
    | error h => simp only; asim
    | ok h =>
      subst h
      simp only
      rw [hp]
      refine ASim.ite ?_ ?_ <;> asim
  · exact ASim.false fun l l' h => hp h.1
macro_rules | `(tactic| alem) => `(tactic| exact asim_inline)
macro_rules | `(tactic| alem) => `(tactic| exact ASim.pre (fun _ _ h => Full.nearLine h) asim_inline)

theorem asim_type : ASim Near (Both Eq Full) W parseType parseType := by
  unfold parseType; asim
macro_rules | `(tactic| alem) => `(tactic| exact asim_type)

theorem asim_number : ASim Near (Both Eq Full) W parseFieldNumber parseFieldNumber := by
  unfold parseFieldNumber nextNumberLit; asim
macro_rules | `(tactic| alem) => `(tactic| exact asim_number)

theorem asim_keyType : ASim Near (Both Eq Full) W parseKeyType parseKeyType := by
  unfold parseKeyType; asim
macro_rules | `(tactic| alem) => `(tactic| exact asim_keyType)

theorem asim_label : ASim Full (Both Eq Full) W parseLabel parseLabel := by
  unfold parseLabel; asim
macro_rules | `(tactic| alem) => `(tactic| exact asim_label)

theorem asim_sign : ASim Near (Both Eq Full) W parseSign parseSign := by
  unfold parseSign; asim
macro_rules | `(tactic| alem) => `(tactic| exact asim_sign)

theorem asim_reserved : ASim Near (Both Eq Full) W parseReserved parseReserved :=
  ASim.nearEq sim_reserved (fun _ _ h => Spec.AlikeReserved.eq (fun _ _ h => Link.loose_at h) h)
    (run_goodK fun _ => trk_reserved) (by unfold parseReserved nextKeyword; fresh)
macro_rules | `(tactic| alem) => `(tactic| exact asim_reserved)

theorem asim_extensions : ASim Near (Both Eq Full) W parseExtensions parseExtensions :=
  ASim.nearEq sim_extensions (fun _ _ h => Spec.AlikeExtensions.eq (fun _ _ h => Link.loose_at h) h)
    (run_goodK fun _ => trk_extensions) (by unfold parseExtensions nextKeyword; fresh)
macro_rules | `(tactic| alem) => `(tactic| exact asim_extensions)

theorem asim_package : ASim Near (Both Eq Full) W parsePackage parsePackage := by
  unfold parsePackage nextKeyword; asim
macro_rules | `(tactic| alem) => `(tactic| exact asim_package)

theorem asim_modifier : ASim Near (Both Eq Full) W parseImportModifier parseImportModifier := by
  unfold parseImportModifier nextKeywordOrStrLit; asim
macro_rules | `(tactic| alem) => `(tactic| exact asim_modifier)

theorem asim_import : ASim Near (Both Eq Full) W parseImport parseImport := by
  unfold parseImport nextKeyword nextStrLit; asim
macro_rules | `(tactic| alem) => `(tactic| exact asim_import)

theorem asim_syntax : ASim Near (Both Eq Full) W parseSyntax parseSyntax := by
  unfold parseSyntax nextKeyword; asim
macro_rules | `(tactic| alem) => `(tactic| exact asim_syntax)

theorem asim_edition : ASim Near (Both Eq Full) W parseEdition parseEdition := by
  unfold parseEdition nextKeyword nextNumberLit; asim
macro_rules | `(tactic| alem) => `(tactic| exact asim_edition)

theorem asim_rpcMessage : ASim Near (Both Eq Full) W parseRPCMessage parseRPCMessage := by
  unfold parseRPCMessage nextKeyword; asim
macro_rules | `(tactic| alem) => `(tactic| exact asim_rpcMessage)

theorem asim_bom : ASim Near (Both Eq Full) W parseBOM parseBOM := by
  unfold parseBOM; asim
macro_rules | `(tactic| alem) => `(tactic| exact asim_bom)

theorem asim_isGroup : ASim Near (Both Eq Full) W peekIsGroup peekIsGroup :=
  ASim.nearEq sim_isGroup (fun _ _ h => h) (run_goodW fun _ => trk_peekIsGroup)
    (by unfold peekIsGroup nextKeyword; fresh)
macro_rules | `(tactic| alem) => `(tactic| exact asim_isGroup)

end Verif
