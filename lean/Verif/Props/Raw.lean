import Verif.Proofs.RawParse
import Verif.Props.Calls

/-!
# What the nodes of a tree hold, for every text (C76)

No condition on the text, in particular it may hold NUL runes, and none on what was called before on the same parser.
-/

set_option backward.isDefEq.respectTransparency false
set_option backward.dsimp.instances true

namespace Verif.Props
open Spec Lexer Parser

/-- C76: what the nodes of a returned tree hold, at every depth. -/
theorem any_tree {fuel : Nat} {input : Str} {options : List ParseOpt} {p : Proto}
    (h : parse fuel input options = .ok p) :
    (∀ s, p.syntax_ = some s → s.protobufVersion = c!"proto2" ∨ s.protobufVersion = c!"proto3") ∧
    (∀ e, p.edition = some e → IntLit e.edition) ∧
    (∀ v, In v p.protoBody → RawNode v) := by
  obtain ⟨l, h1⟩ := parse_ok h
  obtain ⟨h2, h3, h4⟩ := Parser.val_parseProto _ _ h1
  exact ⟨h2, h3, fun v hv => deep_in h4 hv⟩

/-- What is required of the result of a call. -/
def RawRet : Ret → Prop
  | .syntax_ o => ∀ s, o = some s → s.protobufVersion = c!"proto2" ∨ s.protobufVersion = c!"proto3"
  | .edition o => ∀ e, o = some e → IntLit e.edition
  | .declaration d => RawDecl d
  | .comments _ | .flag _ => True
  | .node v => ∀ u, In u [v] → RawNode u

theorem raw_call {α : Type} {R : α → Prop} {g : α → Ret} {m : P α} {l : Lexer} (h : Val R (m l))
    (hg : ∀ a, R a → RawRet (g a)) : Val RawRet ((m >>= fun a => pure (g a)) l) :=
  out_bind h fun a _ ha => out_pure (hg a ha)

/-- C76: what the exported statement parsers return, in whatever state the parser is: the text may be any, and any
calls may have succeeded or failed before.  An inline comment is added to a node that satisfies the same. -/
theorem any_call {cfg : Cfg} {call : Request} {l l' : Lexer} {r : Ret}
    (hv : ∀ v, call = .inline v → ∀ u, In u [v] → RawNode u) (h : call.run cfg l = .ok r l') : RawRet r := by
  have key : Val RawRet (call.run cfg l) := by
    cases call with
    | syntax_ => exact raw_call val_syntax fun _ h => h
    | edition => exact raw_call val_edition fun _ h => h
    | importStmt => exact raw_call val_import fun _ h => deep_leaf h rfl
    | package => exact raw_call val_package fun _ h => deep_leaf h rfl
    | option => exact raw_call out_true fun _ _ => deep_leaf trivial rfl
    | message => exact raw_call (val_message (val_messageBody _)) fun _ h => h
    | enum => exact raw_call val_enum fun _ h => h
    | service => exact raw_call val_service fun _ h => h
    | extend => exact raw_call val_extend fun _ h => h
    | field => exact raw_call val_field fun _ h => deep_leaf h rfl
    | mapField => exact raw_call val_mapField fun _ h => deep_leaf h rfl
    | groupField => exact raw_call (val_group (val_messageBody _)) fun _ h => h
    | oneof => exact raw_call val_oneof fun _ h => deep_leaf h rfl
    | reserved => exact raw_call val_reserved fun _ h => deep_leaf h rfl
    | extensions => exact raw_call val_extensions fun _ h => deep_leaf h rfl
    | declaration => exact raw_call val_declaration fun _ h => h
    | comments => exact raw_call out_true fun _ _ => trivial
    | isEOF => exact raw_call out_true fun _ _ => trivial
    | inline v => exact raw_call (val_inline (hv v rfl)) fun _ h => h
  exact key r l' h

/-! ## Cases -/

/-- A NUL. -/
abbrev nul : Char := Char.ofNat 0

/-- A file with NUL runes in a type, in a name and between statements. -/
def nulDoc : Str := c!"extend a." ++ [nul, nul] ++ c!"{}message M { reserved 'a" ++ [nul] ++ c!"'b'; map<bool, ." ++
  [nul, nul] ++ c!"> m = 0x1F; }" ++ List.replicate 8 nul ++ c!"message {"

/-- A condition on the nodes of a file. -/
def treeHas (r : Outcome Proto) (f : List Visitee → Bool) : Bool :=
  match r with
  | .ok p => f p.protoBody
  | _ => false

theorem treeHas_ok {r : Outcome Proto} {f : List Visitee → Bool} (h : treeHas r f = true) :
    ∃ p, r = .ok p ∧ f p.protoBody = true := by
  cases r with
  | ok p => exact ⟨p, rfl, h⟩
  | _ => cases h

/-- The nodes of `nulDoc`: the type and the name are cut, and what stands behind the last NULs is left out. -/
def nulBody : List Visitee → Bool
  | [.extend e, .message ⟨name, [.reserved r, .mapField m], _, _, _, _⟩] =>
    decide (e.messageType = c!"a." ∧ name = c!"M" ∧ r.fieldNames = [c!"'a'b'"] ∧ m.keyType = c!"bool" ∧
      m.type = c!"." ∧ m.fieldNumber = c!"0x1F")
  | _ => false

theorem nulDoc_tree : ∃ p, parse 50 nulDoc = .ok p ∧ nulBody p.protoBody = true :=
  treeHas_ok (f := nulBody) (by decide +kernel)

/-- C76 applies to it. -/
example : ∃ p, parse 50 nulDoc = .ok p ∧ p.protoBody.length = 2 ∧ ∀ v, In v p.protoBody → RawNode v := by
  obtain ⟨p, h1, h2⟩ := nulDoc_tree
  refine ⟨p, h1, ?_, (any_tree h1).2.2⟩
  unfold nulBody at h2
  split at h2
  · next h => rw [h]; rfl
  · cases h2

theorem last_append {s t : Str} (h : t ≠ []) : (s ++ t).getLast? = t.getLast? := by
  rw [List.getLast?_append]
  cases e : t.getLast? with
  | none => exact absurd (List.getLast?_eq_none_iff.1 e) h
  | some c => rfl

theorem fullIdent_last {s : Str} {ws : List Str} (h : FullIdent s ws) : s.getLast? ≠ some '.' ∧ s ≠ [] := by
  induction h with
  | one w h =>
    cases h with
    | mk c w h1 h2 =>
      refine ⟨?_, by simp⟩
      intro e
      have hm : '.' ∈ c :: w := List.mem_of_getLast? e
      simp only [List.mem_cons] at hm
      rcases hm with hm | hm
      · subst hm
        rcases h1 with h | h
        · exact absurd h (by decide)
        · exact absurd h (by decide)
      · rcases h2 _ hm with h | h | h
        · exact absurd h (by decide)
        · exact absurd h (by decide)
        · exact absurd h (by decide)
  | more w s ws _ _ ih =>
    refine ⟨?_, by simp⟩
    rw [last_append ih.2]
    exact ih.1

/-- A type does not end with a dot. -/
theorem typeRef_last {s : Str} (h : TypeRef s) : s.getLast? ≠ some '.' := by
  obtain ⟨ws, h⟩ := h
  cases h with
  | plain _ _ h => exact (fullIdent_last h).1
  | dot s _ h =>
    rw [last_append (fullIdent_last h).2]
    exact (fullIdent_last h).1

/-- C22 fails for texts with NUL: a type ends with a dot, and a name in quotes has one of its quotes inside. -/
theorem names_violation : ∃ input p, parse 50 input = .ok p ∧
    (∃ x, In (.extend x) p.protoBody ∧ ¬ TypeRef x.messageType) ∧
    (∃ x, In (.reserved x) p.protoBody ∧ ∃ n ∈ x.fieldNames, ¬ StrLit n ∧ ¬ Word n) := by
  obtain ⟨p, h1, h2⟩ := nulDoc_tree
  refine ⟨nulDoc, p, h1, ?_⟩
  unfold nulBody at h2
  split at h2
  · next e name r m _ _ _ _ h =>
    simp only [decide_eq_true_eq] at h2
    obtain ⟨k1, _, k2, _⟩ := h2
    rw [h]
    refine ⟨⟨e, .here _, ?_⟩, r, .there _ _ (.message _ _ (.here _)), c!"'a'b'", by rw [k2]; simp, ?_, ?_⟩
    · rw [k1]
      exact fun h => typeRef_last h (by decide)
    · rintro ⟨q, b, _, h, e⟩
      obtain ⟨rfl, rfl⟩ : q = '\'' ∧ b = c!"a'b" := by
        have e : c!"'a'b'" = (q :: b) ++ [q] := e
        have : (q :: b) = c!"'a'b" := by
          have := congrArg List.dropLast e
          rw [List.dropLast_concat] at this
          exact this.symm
        simpa using this
      cases h with
      | plain _ _ _ _ _ h =>
        cases h with
        | plain _ _ h _ _ _ => exact h rfl
    · intro h
      generalize e : c!"'a'b'" = w at h
      cases h with
      | mk c w h _ =>
        simp only [List.cons.injEq] at e
        obtain ⟨rfl, _⟩ := e
        rcases h with h | h
        · exact absurd h (by decide)
        · exact absurd h (by decide)
  · cases h2

/-- A message, NUL runes and a text that is no statement. -/
def cutDoc : Str := c!"message M {}" ++ List.replicate 8 nul ++ c!"message {"

/-- What stands behind NUL runes is left out without an error, although it is rejected without them. -/
theorem nul_cut : (∃ p, parse 50 cutDoc = .ok p ∧ p.protoBody.length = 1) ∧
    ∀ p, parse 50 (cutDoc.filter (· ≠ nul)) ≠ .ok p := by
  constructor
  · obtain ⟨p, h1, h2⟩ := treeHas_ok (r := parse 50 cutDoc) (f := fun b => b.length == 1) (by decide +kernel)
    exact ⟨p, h1, by simpa using h2⟩
  · intro p h
    have : treeHas (parse 50 (cutDoc.filter (· ≠ nul))) (fun _ => true) = false := by decide +kernel
    rw [h] at this
    cases this

/-- A call that fails and one behind it that returns a field. -/
def failThen (input : Str) : Bool :=
  match Request.message.run { fuel := 9 } (Lexer.new input []) with
  | .err _ l =>
    match Request.field.run { fuel := 9 } l with
    | .ok (.node (.field x)) _ => decide (x.fieldName = c!"f" ∧ x.fieldNumber = c!"07")
    | _ => false
  | _ => false

/-- C76 applies to a call behind a failed one. -/
example : ∃ e l1 x l2, Request.message.run { fuel := 9 } (Lexer.new c!"message ; a.B f = 07;" []) = .err e l1 ∧
    Request.field.run { fuel := 9 } l1 = .ok (.node (.field x)) l2 ∧ x.fieldName = c!"f" ∧
    RawRet (.node (.field x)) := by
  have h : failThen c!"message ; a.B f = 07;" = true := by decide +kernel
  unfold failThen at h
  split at h
  · next e l1 h1 =>
    split at h
    · next x l2 h2 =>
      simp only [decide_eq_true_eq] at h
      exact ⟨e, l1, x, l2, h1, h2, h.1, any_call (by simp) h2⟩
    · cases h
  · cases h

end Verif.Props
