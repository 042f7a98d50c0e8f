import Verif.Proofs.Lexeme
import Verif.Model.Lexer

/-!
# Facts about the lexer's cursor
-/

set_option backward.isDefEq.respectTransparency false
set_option backward.dsimp.instances true

namespace Verif
namespace Lexer
open M Scanner

theorem run_tok (l : Lexer) : tok l = .ok l.token l := rfl
theorem run_txt (l : Lexer) : txt l = .ok l.text l := rfl
theorem run_position (l : Lexer) : position l = .ok l.pos l := rfl
theorem run_bound (l : Lexer) : bound l = .ok (l.scanner.inp.length + 1) l := rfl

/-- The state after a call of `Next` in mode `m`. -/
def nextSt (m : Mode) (l : Lexer) : Lexer where
  token := (lex m l.scanner.inp).token
  text := (lex m l.scanner.inp).text
  rawText := (lex m l.scanner.inp).raw
  pos := l.scanner.pos.advanceAll (lex m l.scanner.inp).gap
  log := l.log ++ ((lex m l.scanner.inp).scanned l.scanner.pos).error.toList
  scanner := (lex m l.scanner.inp).after l.scanner

theorem nextCur_eq {l : Lexer} (h : NulFree l.scanner.inp) :
    nextCur l = .ok () (nextSt l.scanner.mode l) := by
  unfold nextCur
  rw [scan_eq h]
  simp only [nextSt, after_raw, LexOut.scanned]

theorem nextWith_eq {l : Lexer} (m : Mode) (h : NulFree l.scanner.inp) :
    nextWith m l = .ok () (nextSt m l) := by
  unfold nextWith
  simp only
  rw [nextCur_eq (l := { l with scanner := { l.scanner with mode := m } }) h]
  rfl

/-- The state after `Next` in mode `m` and `UnNext`. -/
def putBack (m : Mode) (l : Lexer) : Lexer :=
  { nextSt m l with
      token := .illegal
      pos := l.scanner.pos
      scanner := { l.scanner with
        raw := (lex m l.scanner.inp).raw
        comments := l.scanner.comments ++ (lex m l.scanner.inp).texts l.scanner.pos } }

theorem unScan_after' (m : Mode) (s : Scanner) :
    ((lex m s.inp).after s).unScan =
      { s with raw := (lex m s.inp).raw
               comments := s.comments ++ (lex m s.inp).texts s.pos } := by
  rw [unScan_eq (p := s.pos) (by simp)]
  have := drop_raw m s.inp
  simp only [after_raw, after_inp, ← this]
  simp [LexOut.after, LexOut.state]

theorem unNext_nextSt (m : Mode) (l : Lexer) : unNext (nextSt m l) = .ok () (putBack m l) := by
  unfold unNext
  simp only [nextSt, unScan_after', putBack]

end Lexer
end Verif
