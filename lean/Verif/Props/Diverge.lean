import Verif.Proofs.Diverge
import Verif.Model.Api

set_option backward.isDefEq.respectTransparency false
set_option backward.dsimp.instances true

/-!
# C19: an input on which `Parse` does not return

After a failed group the parser puts the last token back twice (message.go:229-239 after the put-back of
`ReadEmptyStatement`).  If that token is an unclosed comment, the second copy begins inside the comment that
the first copy opens, so that what was a comment is read as code.  `endless` uses this to restore the text
that was read before: the loop over the body of `M` alternates between two texts for ever.
-/

namespace Verif.Props

open Verif Spec Lexer Parser

/-- The value and the state of a normal return. -/
def valD {α : Type} (d : α) : Res Lexer Err α → α
  | .ok a _ => a
  | _ => d

def finD {α : Type} : Res Lexer Err α → Lexer
  | .ok _ l => l
  | _ => Lexer.new [] []

def isOk {α : Type} : Res Lexer Err α → Bool
  | .ok _ _ => true
  | _ => false

theorem ok_eq {α : Type} {r : Res Lexer Err α} (d : α) (h : isOk r = true) : r = .ok (valD d r) (finD r) := by
  cases r with
  | ok a l => rfl
  | err e l => cases h
  | halt e => cases h

theorem bind_isOk {α β : Type} {m : P α} {f : α → P β} {l : Lexer} (d : α) (h : isOk (m l) = true) :
    (m >>= f) l = f (valD d (m l)) (finD (m l)) := by
  show M.bind m f l = _
  unfold M.bind
  revert h
  cases m l with
  | ok a l => intro _; rfl
  | err e l => intro h; cases h
  | halt e => intro h; cases h

theorem ite_run {α : Type} {c : Prop} [Decidable c] {m n : P α} {l : Lexer} {r : Res Lexer Err α} (hc : ¬c)
    (h : n l = r) : (if c then m else n) l = r := by rw [if_neg hc]; exact h

theorem bind_fuel {α β : Type} {m : P α} {f : α → P β} {l : Lexer} (h : m l = .halt .fuel) :
    (m >>= f) l = .halt .fuel := by
  show M.bind m f l = _
  unfold M.bind
  rw [h]

/-- The last part of the input: a line comment behind a block comment, seen from the beginning. -/
def tailText : Str :=
  c!" /*/ ; group A=1{group A=1{extensions 1[declaration={/*
/*///*/ /*/ ; group A=1{group A=1{group A=1{option a=[1 *"

/-- The text behind `message M{`. -/
def textA : Str := c!" group A=1{group A=1{group A=1{option a=[1 *" ++ tailText

/-- The text after the first statement of the body of `M`. -/
def textB : Str :=
  c!" group A=1{group A=1{extensions 1[declaration={/*
/*///*/ /*/ ; group A=1{group A=1{group A=1{option a=[1 *" ++ tailText

/-- An input of 167 characters. -/
def endless : Str := c!"message M{" ++ textA

set_option maxRecDepth 100000 in
theorem a_to_b : GoesTo textB (turn ⟨true, false, 6⟩ (messageBody ⟨true, false, 6⟩ 6) (Lexer.new textA [])) := by
  decide +kernel

set_option maxRecDepth 100000 in
theorem b_to_a : GoesTo textA (turn ⟨true, false, 6⟩ (messageBody ⟨true, false, 6⟩ 6) (Lexer.new textB [])) := by
  decide +kernel

set_option maxRecDepth 100000 in
theorem textA_free : NulFree textA := by unfold NulFree; decide +kernel

set_option maxRecDepth 100000 in
theorem textB_free : NulFree textB := by unfold NulFree; decide +kernel

attribute [local irreducible] GoesTo turn textA textB in
/-- The loop over the body of `M` does not end. -/
theorem loop_endless {b : Bool} {m d : Nat} {i : Option Comment} (n : Nat) (vs : List Visitee) (l : Lexer)
    (hl : l.scanner.inp = textA ∨ l.scanner.inp = textB) (hm : l.scanner.mode = {}) :
    messageLoop ⟨true, b, m⟩ (messageBody ⟨true, b, m⟩ d) i n vs l = .halt .fuel :=
  messageLoop_forever (t := textA) (t' := textB)
    (fun _ h1 h2 => turn_text (t := textA) (t' := textB) (b' := false) (n' := 6) (d' := 6) (f := [])
      textA_free a_to_b h1 h2)
    (fun _ h1 h2 => turn_text (t := textB) (t' := textA) (b' := false) (n' := 6) (d' := 6) (f := [])
      textB_free b_to_a h1 h2) n vs l hl hm

/-! The way to that loop -/

def st0 : Lexer := Lexer.new endless []
def st1 : Lexer := finD (parseBOM st0)
def st2 : Lexer := finD (parseComments st1)
def st3 : Lexer := finD (syntaxPart (valD [] (parseComments st1)) st2)
def st4 : Lexer := finD (editionPart (valD [] (parseComments st1)) st3)
def st5 : Lexer := finD (parseComments st4)
def st6 : Lexer := finD (Parser.isEOF st5)
def st7 : Lexer := finD (peekKeyword st6)
def st8 : Lexer := finD (expect nextKeyword .kMessage "message" st7)
def st9 : Lexer := finD (position st8)
def st10 : Lexer := finD (expect next .ident "messageName" st9)
def st11 : Lexer := finD (txt st10)
def st12 : Lexer := finD (expect next .leftCurly "{" st11)
def st13 : Lexer := finD (parseInlineComment st12)
def st14 : Lexer := finD (next st13)
def st15 : Lexer := finD (tok st14)
def st16 : Lexer := finD (unNext st15)

theorem body_endless (b : Bool) (m d : Nat) : messageBody ⟨true, b, m⟩ d st11 = .halt .fuel := by
  cases d with
  | zero => rfl
  | succ d =>
    show messageBodyWith ⟨true, b, m⟩ (messageBody ⟨true, b, m⟩ d) st11 = _
    unfold messageBodyWith
    rw [bind_isOk () (by decide +kernel)]
    show (parseInlineComment >>= _) st12 = _
    rw [bind_isOk none (by decide +kernel)]
    show (next >>= _) st13 = _
    rw [bind_isOk () (by decide +kernel)]
    show (tok >>= _) st14 = _
    rw [bind_isOk .illegal (by decide +kernel)]
    refine ite_run (by decide +kernel) ?_
    show (unNext >>= _) st15 = _
    rw [bind_isOk () (by decide +kernel)]
    exact loop_endless m [] st16 (.inl (by decide +kernel)) (by decide +kernel)

theorem run_endless (b : Bool) (n : Nat) :
    parseProto ⟨true, b, n⟩ (Lexer.new endless []) = .halt .fuel := by
  rw [parseProto_eq]
  show (parseBOM >>= _) st0 = _
  rw [bind_isOk () (by decide +kernel)]
  show (parseComments >>= _) st1 = _
  rw [bind_isOk [] (by decide +kernel)]
  show protoRest _ _ st2 = _
  unfold protoRest
  rw [bind_isOk none (by decide +kernel)]
  show (editionPart _ >>= _) st3 = _
  rw [bind_isOk none (by decide +kernel)]
  show (parseProtoBody _ >>= _) st4 = _
  suffices h : parseProtoBody ⟨true, b, n⟩ st4 = .halt .fuel by
    show M.bind _ _ st4 = _
    unfold M.bind
    rw [h]
  unfold parseProtoBody
  cases n with
  | zero => rfl
  | succ n =>
    unfold protoLoop
    rw [bind_isOk [] (by decide +kernel)]
    show (Parser.isEOF >>= _) st5 = _
    rw [bind_isOk false (by decide +kernel)]
    refine ite_run (by decide +kernel) ?_
    show (peekKeyword >>= _) st6 = _
    rw [bind_isOk .illegal (by decide +kernel)]
    suffices h : ∀ cs, protoStmt ⟨true, b, n + 1⟩ cs .kMessage st7 = .halt .fuel by
      refine bind_fuel ?_
      rw [show valD .illegal (peekKeyword st6) = .kMessage by decide +kernel]
      exact h _
    intro cs
    show (parseMessageWith _ >>= _) st7 = _
    refine bind_fuel ?_
    unfold parseMessageWith
    rw [bind_isOk () (by decide +kernel)]
    show (position >>= _) st8 = _
    rw [bind_isOk (SPos.new []) (by decide +kernel)]
    show (expect _ _ _ >>= _) st9 = _
    rw [bind_isOk () (by decide +kernel)]
    show (txt >>= _) st10 = _
    rw [bind_isOk [] (by decide +kernel)]
    exact bind_fuel (body_endless b (n + 1) (n + 1))

theorem rel_not_more {α : Type} {R : α → α → Prop} {E : Err → Err → Prop} {o o' : Outcome α}
    (h : OutcomeRel R E o o') (e : o' = .more) : False := by
  cases h <;> cases e

/-- C19 is violated: in permissive mode, which is the default, `Parse` does not return on `endless`, whatever
the other options are. -/
theorem termination_violation (f : Str) (b : Bool) (n : Nat) :
    parse n endless [withFilename f, withBodyIncludingComments b] = .more := by
  have h := alike_parse (ρ := Link.renamed f []) (k := .either) (input := endless) (n := n) (n' := n)
    (c := configOf [withFilename f, withBodyIncludingComments b])
    (c' := configOf [withBodyIncludingComments b]) rfl (.inr rfl) (Nat.le_refl n) trivial ⟨rfl, rfl⟩
  rcases h with h | h
  · exact h
  · have e : Outcome.ofRes (runProto n (configOf [withBodyIncludingComments b]) endless) = .more := by
      rw [show runProto n (configOf [withBodyIncludingComments b]) endless = .halt .fuel from run_endless b n]
      rfl
    exact (rel_not_more h e).elim

/-- There is no outcome. -/
theorem no_outcome : ¬∃ o, Parses endless [] o := by
  rintro ⟨o, ho, n, h⟩
  exact ho (h.symm.trans (congrArg Outcome.ofRes (run_endless false n)))

example : endless.length = 167 := by decide +kernel

end Verif.Props
