import Verif.Proofs.CompleteLex
import Verif.Proofs.ParseOption
import Verif.Spec.Bare

/-!
# option.go accepts the option names, constants and options of the grammar
-/

set_option backward.isDefEq.respectTransparency false
set_option backward.dsimp.instances true

namespace Verif
variable {T : Src}
open Spec Scanner Lexer
open M (bind_ok run_get)

/-- The grammar without what the code accepts beyond it. -/
def Cfg.exact (cfg : Cfg) : Gram := ⟨cfg.permissive, false, false⟩

theorem tokIs_semi {m : Mode} : TokIs m c!";" .semicolon := tokIs_punct rfl (by simp)
theorem tokIs_colon {m : Mode} : TokIs m c!":" .colon := tokIs_punct rfl (by simp)
theorem tokIs_equals {m : Mode} : TokIs m c!"=" .equals := tokIs_punct rfl (by simp)
theorem tokIs_comma {m : Mode} : TokIs m c!"," .comma := tokIs_punct rfl (by simp)
theorem tokIs_lparen {m : Mode} : TokIs m c!"(" .leftParen := tokIs_punct rfl (by simp)
theorem tokIs_rparen {m : Mode} : TokIs m c!")" .rightParen := tokIs_punct rfl (by simp)
theorem tokIs_lcurly {m : Mode} : TokIs m c!"{" .leftCurly := tokIs_punct rfl (by simp)
theorem tokIs_rcurly {m : Mode} : TokIs m c!"}" .rightCurly := tokIs_punct rfl (by simp)
theorem tokIs_lsquare {m : Mode} : TokIs m c!"[" .leftSquare := tokIs_punct rfl (by simp)
theorem tokIs_rsquare {m : Mode} : TokIs m c!"]" .rightSquare := tokIs_punct rfl (by simp)

/-- Runes that do not start a word. -/
theorem not_wordStart {c : Char} (h : c ∈ c!".'\"{}[](),;:=<>-+0123456789") : ¬ WordStart c := by
  unfold WordStart
  revert c
  decide

theorem free_word' {w : Str} {ws : List Str} (hw : Word w) : Free c!".'\"{}[](),;:=<>-+0123456789" (w :: ws) :=
  free_word hw (fun _ h => not_wordStart h)

namespace Parser

/-! ## Option names -/

section
variable {H : Halt → Prop} {E : Err → Lexer → Prop} {l : Lexer} {rest : List Str} {cfg : Cfg} {G : Gram}

theorem optionNamePart_go {s : Str} {ws : List Str} (hG : G.permissive = cfg.permissive)
    (hs : NamePart G s ws) {x : String} (h : Ahead T l (ws ++ rest)) :
    Sat H (fun r l' => r = s ∧ Ahead T l' rest) E (optionNamePart cfg x (nextSt {} l)) := by
  unfold optionNamePart
  rw [sat_tok, sat_txt]
  have paren : ∀ {d : List Str} {f : Str} {ws' : List Str}, FullIdent f ws' →
      (d = [] ∨ (cfg.permissive = true ∧ d = [c!"."])) →
      Ahead T l (c!"(" :: d ++ ws' ++ c!")" :: rest) →
      Sat H (fun r l' => r = c!"(" ++ d.flatten ++ f ++ c!")" ∧ Ahead T l' rest) E
        ((do
          let dot ← optionNameDot cfg
          let (fullIdent, _) ← readFullIdent
          expect next .rightParen ")"
          let r ← txt
          return (nextSt {} l).text ++ dot ++ fullIdent ++ r) (nextSt {} l)) ∧
      (nextSt {} l).token = .leftParen := by
    intro d f ws' hf hd h
    obtain ⟨h1, h2, h3⟩ := Ahead.next (w := c!"(") (ws := d ++ ws' ++ c!")" :: rest)
      (by simpa using h) (m := {}) rfl tokIs_lparen
    refine ⟨?_, h1⟩
    rw [h2]
    refine Sat.bind (Q := fun r l' => r = d.flatten ∧ Ahead T l' (ws' ++ c!")" :: rest)) ?_ ?_
    · unfold optionNameDot
      refine sat_ite (fun hp => ?_) (fun hp => ?_)
      · refine sat_next h3.good ?_
        rw [sat_tok]
        rcases hd with rfl | ⟨_, rfl⟩
        · obtain ⟨w, ds, hw, _, _, rfl⟩ := FullIdent.split hf
          have : (nextSt {} (nextSt {} l)).token ≠ .dot :=
            h3.ne_punct rfl rfl (free_word' hw) (by decide)
          refine sat_neg this ?_
          refine sat_unNext ?_
          exact ⟨rfl, by simpa using h3.putBack {}⟩
        · obtain ⟨h4, _, h6⟩ := Ahead.next (w := c!".") (ws := ws' ++ c!")" :: rest)
            (by simpa using h3) (m := {}) rfl tokIs_dot
          refine sat_pos h4 ?_
          exact ⟨rfl, h6⟩
      · rcases hd with rfl | ⟨h, _⟩
        · exact ⟨rfl, by simpa using h3⟩
        · exact absurd h hp
    · rintro r l2 ⟨rfl, h4⟩
      refine Sat.bind (readFullIdent_go hf (free_cons (by decide)) h4) ?_
      rintro ⟨f', p⟩ l3 ⟨rfl, h5⟩
      refine go_expect h5 .next rfl tokIs_rparen (fun l4 h6 h7 h8 => ?_)
      rw [sat_txt, h7]
      exact ⟨by simp, h8⟩
  cases hs with
  | ident w hw =>
    obtain ⟨h1, h2, h3⟩ := Ahead.next (w := s) (ws := rest) h (m := {}) rfl (tokIs_ident hw)
    refine sat_pos h1 ?_
    exact ⟨h2, h3⟩
  | paren f ws' hf =>
    obtain ⟨h1, h2⟩ := paren (d := []) hf (.inl rfl) (by simpa using h)
    refine sat_neg (by simp [h2]) ?_
    refine sat_pos h2 ?_
    simpa using h1
  | dotted f ws' hp hf =>
    obtain ⟨h1, h2⟩ := paren (d := [c!"."]) hf (.inr ⟨hG ▸ hp, rfl⟩) (by simpa using h)
    refine sat_neg (by simp [h2]) ?_
    refine sat_pos h2 ?_
    simpa using h1

theorem NameTail.snoc {s s' : Str} {ws ws' : List Str} (h : NameTail G s ws) (h' : NamePart G s' ws') :
    NameTail G (s ++ c!"." ++ s') (ws ++ c!"." :: ws') := by
  induction h with
  | nil => simpa using NameTail.cons s' ws' [] [] h' .nil
  | cons a as b bs ha _ ih => simpa using NameTail.cons a as _ _ ha ih

theorem OptionName.split {s : Str} {ws : List Str} (h : OptionName G s ws) :
    ∃ a as b bs, NamePart G a as ∧ NameTail G b bs ∧ s = a ++ b ∧ ws = as ++ bs := by
  induction h with
  | one s ws h => exact ⟨s, ws, [], [], h, .nil, by simp, by simp⟩
  | more s ws s' ws' _ h' ih =>
    obtain ⟨a, as, b, bs, h1, h2, rfl, rfl⟩ := ih
    exact ⟨a, as, _, _, h1, h2.snoc h', by simp, by simp⟩

theorem optionNameLoop_go (hG : G.permissive = cfg.permissive) (hr : Free ['.'] rest) (n : Nat) :
    ∀ {l : Lexer} {acc s : Str} {ws : List Str}, NameTail G s ws → Ahead T l (ws ++ rest) → ws.length < n →
    Sat H (fun r l' => r = acc ++ s ∧ Ahead T l' rest) E (optionNameLoop cfg n acc l) := by
  induction n with
  | zero => intro _ _ _ _ _ _ h; omega
  | succ n ih =>
    intro l acc s ws hs h hn
    unfold optionNameLoop
    refine sat_next h.good ?_
    rw [sat_tok]
    cases hs with
    | nil =>
      have h4 : (nextSt {} l).token ≠ .dot := h.ne_punct rfl rfl hr (by simp)
      refine sat_pos h4 ?_
      refine sat_unNext ?_
      exact ⟨by simp, h.putBack {}⟩
    | cons a as b bs ha hb =>
      obtain ⟨h4, h5, h6⟩ := Ahead.next (w := c!".") (ws := as ++ (bs ++ rest))
        (by simpa using h) (m := {}) rfl tokIs_dot
      refine sat_neg (by simp [h4]) ?_
      rw [sat_txt]
      refine sat_next h6.good ?_
      rw [h5]
      refine Sat.bind (optionNamePart_go hG ha h6) ?_
      rintro r l2 ⟨rfl, h7⟩
      refine (ih hb h7 (by simp at hn; omega)).mono ?_ (fun _ _ h => h)
      rintro r' l' ⟨rfl, h7⟩
      exact ⟨by simp, h7⟩

theorem Ahead.bound {l : Lexer} {ws rest : List Str} (h : Ahead T l (ws ++ rest)) :
    ws.length < l.scanner.inp.length + 1 := by
  have := h.length
  simp at this
  omega

theorem parseOptionName_go {s : Str} {ws : List Str} (hG : G.permissive = cfg.permissive)
    (hs : OptionName G s ws) (hr : Free ['.'] rest) (h : Ahead T l (ws ++ rest)) :
    Sat H (fun r l' => r = s ∧ Ahead T l' rest) E (parseOptionName cfg l) := by
  obtain ⟨a, as, b, bs, h1, h2, rfl, rfl⟩ := OptionName.split hs
  unfold parseOptionName
  refine sat_next h.good ?_
  refine Sat.bind (optionNamePart_go hG h1 (by simpa using h)) ?_
  rintro r l2 ⟨rfl, h3⟩
  rw [sat_bound]
  exact optionNameLoop_go hG hr _ h2 h3 (Ahead.bound h3)

end

/-! ## Constants -/

/-- What may not follow a constant. -/
def after : Str := ['.', '\'', '"'] ++ decimals

/-- `m` reads the constant `s` wherever its spellings `ws` are. -/
def Accepts (m : P Str) (s : Str) (ws : List Str) : Prop :=
  ∀ {T : Src} {H : Halt → Prop} {E : Err → Lexer → Prop} {l : Lexer} {rest : List Str},
    Free after rest → Ahead T l (ws ++ rest) → Sat H (fun r l' => r = s ∧ Ahead T l' rest) E (m l)

theorem free_number {w : Str} (hw : Number w) (us : List Str) : Free ['{', '[', ']', '}'] (w :: us) := by
  have digit : ∀ {c : Char} {w : Str}, c ∈ decimals ∨ c = '.' →
      Free ['{', '[', ']', '}'] ((c :: w) :: us) := by
    intro c w hc
    refine free_cons ?_
    have hc : c ∈ decimals ++ ['.'] := by simpa using hc
    have key : ∀ c ∈ decimals ++ ['.'], c ∉ ['{', '[', ']', '}'] := by decide
    exact key c hc
  rcases hw with hw | hw
  · obtain ⟨c, w', rfl, hc⟩ := intLit_head hw
    exact digit (.inl hc)
  · rcases floatLit_head hw with ⟨c, w', rfl, hc⟩ | rfl | rfl
    · exact digit hc
    · exact free_cons (by decide)
    · exact free_cons (by decide)

theorem free_str {w : Str} (hw : StrLit w) (us : List Str) : Free ['{', '[', ']', '}'] (w :: us) := by
  obtain ⟨q, b, hq, _, rfl⟩ := hw
  exact free_cons (by rcases hq with rfl | rfl <;> decide)

/-- The first spelling of a constant. -/
theorem Constant.first {G : Gram} {s : Str} {ws : List Str} (h : Constant G s ws) :
    ∃ w ws', ws = w :: ws' ∧ (w = c!"{" ∨ w = c!"[" ∨ ∀ us, Free ['{', '[', ']', '}'] (w :: us)) := by
  cases h with
  | name s ws hs _ =>
    obtain ⟨w, ds, hw, _, _, rfl⟩ := FullIdent.split hs
    exact ⟨_, _, rfl, .inr (.inr (fun _ => (free_word' hw).mono (by decide)))⟩
  | bool w hw => exact ⟨_, _, rfl, .inr (.inr (fun _ => (free_word' (bool_word hw)).mono (by decide)))⟩
  | number w hw => exact ⟨_, _, rfl, .inr (.inr (free_number hw))⟩
  | signed s w hs hw =>
    exact ⟨_, _, rfl, .inr (.inr (by rcases hs with rfl | rfl <;> exact fun _ => free_cons (by decide)))⟩
  | str w _ hw => exact ⟨_, _, rfl, .inr (.inr (free_str hw))⟩
  | strs ws _ hne hws =>
    obtain ⟨w, ws', rfl⟩ := List.exists_cons_of_ne_nil hne
    exact ⟨_, _, rfl, .inr (.inr (free_str (hws w (by simp))))⟩
  | emptyMsg => exact ⟨_, _, rfl, .inl rfl⟩
  | emptyList => exact ⟨_, _, rfl, .inr (.inl rfl)⟩
  | list => exact ⟨_, _, rfl, .inr (.inl rfl)⟩
  | msg => exact ⟨_, _, rfl, .inl rfl⟩

theorem ConstTail.snoc {G : Gram} {s s' : Str} {ws ws' : List Str} (h : ConstTail G s ws) (h' : Constant G s' ws') :
    ConstTail G (s ++ c!"," ++ s') (ws ++ c!"," :: ws') := by
  induction h with
  | nil => simpa using ConstTail.cons s' ws' [] [] h' .nil
  | cons a as b bs ha _ ih => simpa using ConstTail.cons a as _ _ ha ih

theorem ConstantList.split {G : Gram} {s : Str} {ws : List Str} (h : ConstantList G s ws) :
    ∃ a as b bs, Constant G a as ∧ ConstTail G b bs ∧ s = a ++ b ∧ ws = as ++ bs := by
  induction h using ConstantList.rec (motive_1 := fun _ _ _ => True) (motive_3 := fun _ _ _ _ => True)
    (motive_4 := fun _ _ _ => True) with
  | one s ws h => exact ⟨s, ws, [], [], h, .nil, by simp, by simp⟩
  | more s ws s' ws' _ h' ih =>
    obtain ⟨a, as, b, bs, h1, h2, rfl, rfl⟩ := ih
    exact ⟨a, as, _, _, h1, h2.snoc h', by simp, by simp⟩
  | _ => trivial

section
variable {H : Halt → Prop} {E : Err → Lexer → Prop} {l : Lexer} {rest : List Str} {cfg : Cfg} {G : Gram}
variable {constant : P Str} {d : Nat}

theorem constTail_free {s : Str} {ws : List Str} (h : ConstTail G s ws) :
    Free after (ws ++ c!"]" :: rest) := by
  cases h with
  | nil => exact free_cons (by decide)
  | cons => exact free_cons (by decide)

theorem constantsLoop_go (hc : ∀ s ws, Constant G s ws → ws.length < d → Accepts constant s ws) (n : Nat) :
    ∀ {l : Lexer} {acc s : Str} {ws : List Str}, ConstTail G s ws → Ahead T l (ws ++ c!"]" :: rest) →
      ws.length < n → ws.length < d →
    Sat H (fun r l' => r = acc ++ s ∧ Ahead T l' (c!"]" :: rest)) E (constantsLoop constant n acc l) := by
  induction n with
  | zero => intro _ _ _ _ _ _ h; omega
  | succ n ih =>
    intro l acc s ws hs h hn hd
    unfold constantsLoop
    refine sat_next h.good ?_
    rw [sat_tok]
    cases hs with
    | nil =>
      have h4 : (nextSt {} l).token ≠ .comma := h.ne_punct rfl rfl (bad := [',']) (free_cons (by decide)) (by simp)
      refine sat_pos h4 ?_
      refine sat_unNext ?_
      exact ⟨by simp, h.putBack {}⟩
    | cons a as b bs ha hb =>
      obtain ⟨h4, h5, h6⟩ := Ahead.next (w := c!",") (ws := as ++ (bs ++ c!"]" :: rest))
        (by simpa using h) (m := {}) rfl tokIs_comma
      refine sat_neg (by simp [h4]) ?_
      simp only [List.length_append, List.length_cons] at hn hd
      refine Sat.bind (orUnexpected_go (hc a as ha (by omega) (constTail_free hb) h6)) ?_
      rintro r l2 ⟨rfl, h7⟩
      refine (ih hb h7 (by omega) (by omega)).mono ?_ (fun _ _ h => h)
      rintro r' l' ⟨rfl, h7⟩
      exact ⟨by simp, h7⟩

theorem parseOptionConstants_go (hc : ∀ s ws, Constant G s ws → ws.length < d → Accepts constant s ws)
    {s : Str} {ws : List Str} (hs : ConstantList G s ws) (h : Ahead T l (ws ++ c!"]" :: rest))
    (hd : ws.length < d) :
    Sat H (fun r l' => r = s ∧ Ahead T l' (c!"]" :: rest)) E (parseOptionConstants constant l) := by
  obtain ⟨a, as, b, bs, h1, h2, rfl, rfl⟩ := ConstantList.split hs
  simp only [List.length_append] at hd
  unfold parseOptionConstants
  refine Sat.bind (hc a as h1 (by omega) (constTail_free h2) (by simpa using h)) ?_
  rintro r l2 ⟨rfl, h3⟩
  rw [sat_bound]
  exact constantsLoop_go hc _ h2 h3 (Ahead.bound h3) (by omega)

/-- A field of a message literal, up to the token after it. -/
theorem entry_go (hp : cfg.permissive = true)
    (hc : ∀ s ws, Constant G s ws → ws.length < d → Accepts constant s ws)
    {b : Bool} {s : Str} {ws : List Str} (hs : Entry G b s ws) (hd : ws.length < d)
    (hr : Free after rest) (hb : b = true → Free [';'] rest) (h : Ahead T l (ws ++ rest)) :
    ∃ l1 sep ns l2 c l3 semi l4, expect next .ident "ident" l = .ok () l1 ∧
      cloudSeparator cfg l1 = .ok (sep, ns) l2 ∧ constant l2 = .ok c l3 ∧
      cloudNeedSemi cfg ns l3 = .ok semi (nextSt {} l4) ∧ l1.text ++ sep ++ c ++ semi = s ∧
      Ahead T l4 rest := by
  have word : ∃ w ws', ws = w :: ws' ∧ Word w := by
    cases hs <;> exact ⟨_, _, rfl, ‹_›⟩
  obtain ⟨w0, ws0, e0, hw0⟩ := word
  obtain ⟨h1', hx1, h1⟩ := Ahead.next (w := w0) (ws := ws0 ++ rest) (by simpa [e0] using h) (m := {}) rfl
    (tokIs_ident hw0)
  have r1 : expect next .ident "ident" l = .ok () (nextSt {} l) := by
    unfold expect
    refine (bind_ok (run_next h.good)).trans ?_
    refine (bind_ok (run_tok _)).trans ?_
    rw [h1']; rfl
  generalize nextSt {} l = l1 at *
  have colon : ∀ {sc : Str} {cs us : List Str}, Constant G sc cs → cs.length < d →
      ws0 ++ rest = c!":" :: cs ++ us → Free after us →
      ∃ l2 l3, cloudSeparator cfg l1 = .ok (c!":", decide (cs.head? = some c!"{")) l2 ∧
        constant l2 = .ok sc l3 ∧ Ahead T l3 us := by
    intro sc cs us hcs hlen e hus
    obtain ⟨r, l2, r2, rfl, k2⟩ := Sat.run (m := cloudSeparator cfg) (l := l1)
      (Q := fun r l' => r = (c!":", decide (cs.head? = some c!"{")) ∧ Ahead T l' (cs ++ us)) (by
      unfold cloudSeparator
      refine sat_next h1.good ?_
      obtain ⟨h4, h5, h6⟩ := Ahead.next (w := c!":") (ws := cs ++ us) (by rw [e] at h1; simpa using h1)
        (m := {}) rfl tokIs_colon
      rw [sat_tok]
      refine sat_neg (by simp [h4]) ?_
      refine sat_pos h4 ?_
      rw [sat_txt]
      refine sat_peek h6.good ?_
      refine ⟨?_, h6.putBack {}⟩
      rw [h5, hp, Bool.and_true]
      congr 1
      obtain ⟨w, ws', rfl, hw⟩ := Constant.first hcs
      by_cases hw' : w = c!"{"
      · subst hw'
        have := (Ahead.next (w := c!"{") (ws := ws' ++ us) (by simpa using h6) (m := {}) rfl tokIs_lcurly).1
        simp [this]
      · have : (nextSt {} (nextSt {} l1)).token ≠ .leftCurly := by
          refine h6.ne_punct rfl rfl (bad := ['{']) ?_ (by simp)
          rcases hw with rfl | rfl | hw
          · exact absurd rfl hw'
          · exact free_cons (by decide)
          · exact (hw (ws' ++ us)).mono (by simp)
        simp [this, hw'])
    obtain ⟨r, l3, r3, rfl, k3⟩ := Sat.run (hc sc cs hcs hlen hus k2)
    exact ⟨l2, l3, r2, r3, k3⟩
  cases hs with
  | colon w sc cs hw hcs =>
    simp only [List.cons.injEq] at e0
    obtain ⟨rfl, rfl⟩ := e0
    obtain ⟨l2, l3, r2, r3, h3⟩ := colon (us := rest) hcs (by simp at hd; omega) (by simp) hr
    obtain ⟨r, l', r4, rfl, l4, rfl, h4⟩ := Sat.run (m := cloudNeedSemi cfg _) (l := l3)
      (Q := fun r l' => r = [] ∧ ∃ l0, l' = nextSt {} l0 ∧ Ahead T l0 rest) (by
      unfold cloudNeedSemi
      refine sat_next h3.good ?_
      rw [sat_tok]
      refine sat_neg ?_ ⟨rfl, l3, rfl, h3⟩
      rintro ⟨e1, e2, _⟩
      exact h3.ne_punct (m := {}) rfl rfl (hb e2) (by simp) e1)
    exact ⟨l1, _, _, l2, sc, l3, [], l4, r1, r2, r3, r4, by simp [hx1], h4⟩
  | semi w sc cs hw hcs hh =>
    simp only [List.cons_append, List.cons.injEq] at e0
    obtain ⟨rfl, rfl⟩ := e0
    obtain ⟨l2, l3, r2, r3, h3⟩ := colon (us := c!";" :: rest) hcs (by simp at hd; omega) (by simp)
      (free_cons (by decide))
    obtain ⟨r, l', r4, rfl, l4, rfl, h4⟩ := Sat.run (m := cloudNeedSemi cfg (decide (cs.head? = some c!"{"))) (l := l3)
      (Q := fun r l' => r = c!";" ∧ ∃ l0, l' = nextSt {} l0 ∧ Ahead T l0 rest) (by
      unfold cloudNeedSemi
      refine sat_next h3.good ?_
      obtain ⟨h4, h5, h6⟩ := h3.next (m := {}) rfl tokIs_semi
      rw [sat_tok]
      refine sat_pos ⟨h4, by simpa using hh, hp⟩ ?_
      rw [sat_txt]
      refine sat_next h6.good ?_
      exact ⟨h5, _, rfl, h6⟩)
    exact ⟨l1, _, _, l2, sc, l3, _, l4, r1, r2, r3, r4, by simp [hx1], h4⟩
  | brace w sc cs hw hcs hh =>
    simp only [List.cons.injEq] at e0
    obtain ⟨rfl, rfl⟩ := e0
    obtain ⟨r, l2, r2, rfl, k2⟩ := Sat.run (m := cloudSeparator cfg) (l := l1)
      (Q := fun r l' => r = ([], false) ∧ Ahead T l' (cs ++ rest)) (by
      unfold cloudSeparator
      refine sat_next h1.good ?_
      obtain ⟨w', cs', rfl, _⟩ := Constant.first hcs
      simp only [List.head?_cons, Option.some.injEq] at hh
      subst hh
      obtain ⟨h4, h5, h6⟩ := Ahead.next (w := c!"{") (ws := cs' ++ rest) (by simpa using h1)
        (m := {}) rfl tokIs_lcurly
      rw [sat_tok]
      refine sat_pos h4 ?_
      refine sat_neg (by simp [hp]) ?_
      refine sat_unNext ?_
      exact ⟨rfl, h1.putBack {}⟩)
    obtain ⟨r, l3, r3, rfl, h3⟩ := Sat.run (hc sc cs hcs (by simp at hd; omega) hr k2)
    obtain ⟨r, l', r4, rfl, l4, rfl, h4⟩ := Sat.run (m := cloudNeedSemi cfg false) (l := l3)
      (Q := fun r l' => r = [] ∧ ∃ l0, l' = nextSt {} l0 ∧ Ahead T l0 rest) (by
      unfold cloudNeedSemi
      refine sat_next h3.good ?_
      rw [sat_tok]
      exact sat_neg (by simp) ⟨rfl, l3, rfl, h3⟩)
    exact ⟨l1, _, _, l2, _, l3, [], l4, r1, r2, r3, r4, by simp [hx1], h4⟩

theorem Entry.first {b : Bool} {s : Str} {ws : List Str} (h : Entry G b s ws) :
    ∃ w ws', ws = w :: ws' ∧ Word w := by
  cases h <;> exact ⟨_, _, rfl, ‹_›⟩

theorem Entries.first {s : Str} {ws : List Str} (h : Entries G s ws) :
    ∃ w ws', ws = w :: ws' ∧ Word w := by
  cases h <;> rename_i he _ <;> first
    | (obtain ⟨w, ws', rfl, hw⟩ := Entry.first ‹Entry _ _ _ _›; exact ⟨w, _, rfl, hw⟩)

theorem cloudLoop_go (hp : cfg.permissive = true)
    (hc : ∀ s ws, Constant G s ws → ws.length < d → Accepts constant s ws) (n : Nat) :
    ∀ {l : Lexer} {acc s : Str} {ws : List Str}, Entries G s ws → Ahead T l (ws ++ rest) →
      ws.length < n → ws.length < d →
    Sat H (fun r l' => r = acc ++ s ∧ Ahead T l' rest) E (cloudLoop cfg constant n acc l) := by
  induction n with
  | zero => intro _ _ _ _ _ _ h; omega
  | succ n ih =>
    intro l acc s ws hs h hn hd
    unfold cloudLoop
    have sepc : ∀ {sep : Str}, sep = c!"," ∨ sep = c!";" →
        ∃ t, (t = .comma ∨ t = .semicolon) ∧ TokIs {} sep t := by
      rintro sep (rfl | rfl)
      · exact ⟨_, .inl rfl, tokIs_comma⟩
      · exact ⟨_, .inr rfl, tokIs_semi⟩
    cases hs with
    | last b s ws he =>
      simp only [List.length_append, List.length_cons, List.length_nil] at hn hd
      obtain ⟨l1, sep, ns, l2, c, l3, semi, l4, r1, r2, r3, r4, e1, h1⟩ := entry_go hp hc he (by omega) (rest := c!"}" :: rest) (free_cons (by decide))
        (fun _ => free_cons (by decide)) (by simpa using h)
      refine sat_run r1 ?_
      rw [sat_txt]
      refine sat_run r2 ?_
      refine sat_run r3 ?_
      refine sat_run r4 ?_
      obtain ⟨h4, h5, h6⟩ := h1.next (m := {}) rfl tokIs_rcurly
      refine Sat.bind (Q := fun r l' => r = (c!"}", true) ∧ Ahead T l' rest) ?_ ?_
      · unfold cloudClose
        rw [sat_tok]
        refine sat_neg (by simp [h4]) ?_
        refine sat_pos h4 ?_
        rw [sat_txt, h5]
        exact ⟨rfl, h6⟩
      · rintro r l2 ⟨rfl, h2⟩
        refine sat_pos rfl ?_
        exact ⟨by simp [← e1], h2⟩
    | lastSep b s ws sep' he hsep =>
      simp only [List.length_append, List.length_cons, List.length_nil] at hn hd
      obtain ⟨l1, sep, ns, l2, c, l3, semi, l4, r1, r2, r3, r4, e1, h1⟩ := entry_go hp hc he (by omega) (rest := sep' :: c!"}" :: rest)
        (by rcases hsep with rfl | ⟨rfl, _⟩ <;> exact free_cons (by decide))
        (by rcases hsep with rfl | ⟨rfl, hb⟩
            · exact fun _ => free_cons (by decide)
            · intro hb'; rw [hb] at hb'; simp at hb')
        (by simpa using h)
      refine sat_run r1 ?_
      rw [sat_txt]
      refine sat_run r2 ?_
      refine sat_run r3 ?_
      refine sat_run r4 ?_
      obtain ⟨t, ht, hk⟩ := sepc (hsep.imp id And.left)
      obtain ⟨h4, h5, h6⟩ := h1.next (m := {}) rfl hk
      have h7 := h6.putBack {}
      obtain ⟨h8, h9, h10⟩ := h7.next (m := {}) rfl tokIs_rcurly
      have h11 := (h6.next (m := {}) rfl tokIs_rcurly).1
      refine Sat.bind (Q := fun r l' => r = (sep' ++ c!"}", true) ∧ Ahead T l' rest) ?_ ?_
      · unfold cloudClose
        rw [sat_tok]
        refine sat_pos (by rw [h4]; exact ht) ?_
        rw [sat_txt, h5]
        refine sat_peek h6.good ?_
        refine sat_pos ⟨h11, hp⟩ ?_
        refine sat_next h7.good ?_
        rw [sat_txt, h9]
        exact ⟨rfl, h10⟩
      · rintro r l2 ⟨rfl, h2⟩
        refine sat_pos rfl ?_
        exact ⟨by simp [← e1], h2⟩
    | sep b s ws sep' s' ws' he hsep hs' =>
      simp only [List.length_append, List.length_cons] at hn hd
      obtain ⟨l1, sep, ns, l2, c, l3, semi, l4, r1, r2, r3, r4, e1, h1⟩ := entry_go hp hc he (by omega) (rest := sep' :: ws' ++ rest)
        (by rcases hsep with rfl | ⟨rfl, _⟩ <;> exact free_cons (by decide))
        (by rcases hsep with rfl | ⟨rfl, hb⟩
            · exact fun _ => free_cons (by decide)
            · intro hb'; rw [hb] at hb'; simp at hb')
        (by simpa using h)
      refine sat_run r1 ?_
      rw [sat_txt]
      refine sat_run r2 ?_
      refine sat_run r3 ?_
      refine sat_run r4 ?_
      obtain ⟨t, ht, hk⟩ := sepc (hsep.imp id And.left)
      obtain ⟨h4, h5, h6⟩ := Ahead.next (w := sep') (ws := ws' ++ rest) h1 (m := {}) rfl hk
      refine Sat.bind (Q := fun r l' => r = (sep', false) ∧ Ahead T l' (ws' ++ rest)) ?_ ?_
      · unfold cloudClose
        rw [sat_tok]
        refine sat_pos (by rw [h4]; exact ht) ?_
        rw [sat_txt, h5]
        refine sat_peek h6.good ?_
        refine sat_neg ?_ ⟨rfl, h6.putBack {}⟩
        rintro ⟨h7, _⟩
        obtain ⟨w, us, rfl, hw⟩ := Entries.first hs'
        exact h6.ne_punct (m := {}) rfl rfl (free_word' hw) (by decide) h7
      · rintro r l2 ⟨rfl, h2⟩
        refine sat_neg (by simp) ?_
        refine (ih hs' h2 (by omega) (by omega)).mono ?_ (fun _ _ h => h)
        rintro r' l' ⟨rfl, h7⟩
        exact ⟨by simp [← e1], h7⟩
    | blank b s ws s' ws' he hs' =>
      simp only [List.length_append] at hn hd
      obtain ⟨w, us, e, hw⟩ := Entries.first hs'
      obtain ⟨w2, us2, e2, _⟩ := Entry.first he
      have hlen : 0 < ws.length := by rw [e2]; simp
      have hf : Free c!".'\"{}[](),;:=<>-+0123456789" (ws' ++ rest) := by rw [e]; exact free_word' hw
      obtain ⟨l1, sep, ns, l2, c, l3, semi, l4, r1, r2, r3, r4, e1, h1⟩ := entry_go hp hc he (by rw [e] at hd; simp at hd; omega) (rest := ws' ++ rest)
        (hf.mono (by decide)) (fun _ => hf.mono (by decide))
        (by simpa using h)
      refine sat_run r1 ?_
      rw [sat_txt]
      refine sat_run r2 ?_
      refine sat_run r3 ?_
      refine sat_run r4 ?_
      refine Sat.bind (Q := fun r l' => r = (c!"\n", false) ∧ Ahead T l' (ws' ++ rest)) ?_ ?_
      · unfold cloudClose
        rw [sat_tok]
        refine sat_neg ?_ ?_
        · rintro (h | h)
          · exact h1.ne_punct (m := {}) rfl rfl hf (by decide) h
          · exact h1.ne_punct (m := {}) rfl rfl hf (by decide) h
        refine sat_neg (h1.ne_punct (m := {}) rfl rfl hf (by decide)) ?_
        refine sat_unNext ?_
        exact ⟨rfl, h1.putBack {}⟩
      · rintro r l2 ⟨rfl, h2⟩
        refine sat_neg (by simp) ?_
        refine (ih hs' h2 (by omega) (by omega)).mono ?_ (fun _ _ h => h)
        rintro r' l' ⟨rfl, h7⟩
        exact ⟨by simp [← e1], h7⟩

theorem optionConstant_go (hG : G.permissive = cfg.permissive) (hl : G.loose = false) (d : Nat) :
    ∀ s ws, Constant G s ws → ws.length < d → Accepts (optionConstant cfg d) s ws := by
  induction d with
  | zero => intro _ _ _ h; omega
  | succ d ih =>
    intro s ws hs hd T H E l rest hr h
    unfold optionConstant
    refine sat_peek h.good ?_
    have h' := h.putBack {}
    by_cases hfl : Flat cfg.permissive s ws ∧
        ∃ w ws', ws = w :: ws' ∧ ∀ us, Free ['{', '[', ']', '}'] (w :: us)
    · obtain ⟨hf, w, ws', e, hw⟩ := hfl
      have hw' := hw (ws' ++ rest)
      have e' : ws ++ rest = w :: (ws' ++ rest) := by rw [e]; rfl
      rw [← e'] at hw'
      refine sat_neg (h.ne_punct (t := .leftCurly) rfl rfl hw' (by simp)) ?_
      refine sat_neg (h.ne_punct (t := .leftSquare) rfl rfl hw' (by simp)) ?_
      refine Sat.bind (readConstant_go hf (hr.mono (by decide)) (fun _ => hr.mono (by decide)) h') ?_
      rintro ⟨r, p⟩ l' ⟨rfl, h2⟩
      exact ⟨rfl, h2⟩
    have flat : Flat cfg.permissive s ws →
        (∃ w ws', ws = w :: ws' ∧ ∀ us, Free ['{', '[', ']', '}'] (w :: us)) → False :=
      fun h1 h2 => hfl ⟨h1, h2⟩
    have fst := Constant.first hs
    cases hs with
    | name s ws hf hn =>
      obtain ⟨w, ds, hw, _, _, rfl⟩ := FullIdent.split hf
      exact False.elim <| flat (.name _ _ hf hn) ⟨_, _, rfl, fun _ => (free_word' hw).mono (by decide)⟩
    | bool w hw => exact False.elim <| flat (.bool _ hw) ⟨_, _, rfl, fun _ => (free_word' (bool_word hw)).mono (by decide)⟩
    | number w hw => exact False.elim <| flat (.number _ hw) ⟨_, _, rfl, free_number hw⟩
    | signed sg w hsg hw =>
      exact False.elim <| flat (.signed _ _ hsg hw) ⟨_, _, rfl, by
        rcases hsg with rfl | rfl <;> exact fun _ => free_cons (by decide)⟩
    | str w hp hw => exact False.elim <| flat (.str _ (hG ▸ hp) hw) ⟨_, _, rfl, free_str hw⟩
    | strs ws hp hne hws =>
      obtain ⟨w, ws', e⟩ := List.exists_cons_of_ne_nil hne
      exact False.elim <| flat (.strs _ (hG ▸ hp) hne hws) ⟨_, _, e, free_str (hws w (by simp [e]))⟩
    | emptyMsg hp =>
      rw [hG] at hp
      obtain ⟨k1, _, k3⟩ := Ahead.next (w := c!"{") (ws := c!"}" :: rest) h (m := {}) rfl tokIs_lcurly
      refine sat_pos k1 ?_
      refine sat_neg (by simp [hp]) ?_
      refine go_peekN2 (w := c!"{") (ws := c!"}" :: rest) h' tokIs_lcurly ⟨by simp, by simp, by simp⟩ (fun l1 h1 => ?_)
      obtain ⟨_, _, k4⟩ := Ahead.next (w := c!"{") (ws := c!"}" :: rest) h' (m := {}) rfl tokIs_lcurly
      refine sat_pos (k4.next (m := {}) rfl tokIs_rcurly).1 ?_
      obtain ⟨_, _, k5⟩ := Ahead.next (w := c!"{") (ws := c!"}" :: rest) h1 (m := {}) rfl tokIs_lcurly
      obtain ⟨_, _, k6⟩ := k5.next (m := {}) rfl tokIs_rcurly
      have hrun : nextN 2 l1 = .ok () (nextSt {} (nextSt {} l1)) := by
        unfold nextN
        refine (bind_ok (run_next h1.good)).trans ?_
        unfold nextN
        refine (bind_ok (run_next k5.good)).trans ?_
        rfl
      show Sat H _ E (M.bind (nextN 2) _ l1)
      unfold M.bind
      rw [hrun]
      exact ⟨rfl, k6⟩
    | emptyList hp =>
      rw [hG] at hp
      obtain ⟨k1, _, k3⟩ := Ahead.next (w := c!"[") (ws := c!"]" :: rest) h (m := {}) rfl tokIs_lsquare
      refine sat_neg (by simp [k1]) ?_
      refine sat_pos k1 ?_
      refine sat_neg (by simp [hp]) ?_
      refine sat_next h'.good ?_
      obtain ⟨_, _, k4⟩ := Ahead.next (w := c!"[") (ws := c!"]" :: rest) h' (m := {}) rfl tokIs_lsquare
      refine sat_peek k4.good ?_
      refine sat_pos (k4.next (m := {}) rfl tokIs_rsquare).1 ?_
      have k5 := k4.putBack {}
      refine sat_next k5.good ?_
      exact ⟨rfl, (k5.next (m := {}) rfl tokIs_rsquare).2.2⟩
    | list s ws close hp hcl hclose =>
      rw [hG] at hp
      obtain rfl : close = c!"]" := by
        rcases hclose with h | ⟨h, _⟩
        · exact h
        · rw [hl] at h; simp at h
      simp only [List.length_append, List.length_cons, List.length_nil] at hd
      obtain ⟨k1, _, k3⟩ := Ahead.next (w := c!"[") (ws := ws ++ c!"]" :: rest) (by simpa using h) (m := {}) rfl tokIs_lsquare
      refine sat_neg (by simp [k1]) ?_
      refine sat_pos k1 ?_
      refine sat_neg (by simp [hp]) ?_
      refine sat_next h'.good ?_
      obtain ⟨_, _, k4⟩ := Ahead.next (w := c!"[") (ws := ws ++ c!"]" :: rest) (by simpa using h') (m := {}) rfl tokIs_lsquare
      refine sat_peek k4.good ?_
      refine sat_neg ?_ ?_
      · obtain ⟨a, as, b, bs, h1, _, _, e⟩ := ConstantList.split hcl
        obtain ⟨w, as', rfl, hw⟩ := Constant.first h1
        refine k4.ne_punct (m := {}) rfl rfl (bad := [']']) ?_ (by simp)
        rw [e]
        rcases hw with rfl | rfl | hw
        · exact free_cons (by decide)
        · exact free_cons (by decide)
        · exact (hw _).mono (by simp)
      · refine Sat.bind (parseOptionConstants_go ih hcl (k4.putBack {}) (by omega)) ?_
        rintro r l2 ⟨rfl, h2⟩
        refine sat_next h2.good ?_
        exact ⟨rfl, (h2.next (m := {}) rfl tokIs_rsquare).2.2⟩
    | msg s ws hp he =>
      rw [hG] at hp
      simp only [List.length_cons] at hd
      obtain ⟨k1, _, k3⟩ := Ahead.next (w := c!"{") (ws := ws ++ rest) (by simpa using h) (m := {}) rfl tokIs_lcurly
      refine sat_pos k1 ?_
      refine sat_neg (by simp [hp]) ?_
      refine go_peekN2 (w := c!"{") (ws := ws ++ rest) (by simpa using h') tokIs_lcurly ⟨by simp, by simp, by simp⟩
        (fun l1 h1 => ?_)
      obtain ⟨_, _, k4⟩ := Ahead.next (w := c!"{") (ws := ws ++ rest) (by simpa using h') (m := {}) rfl tokIs_lcurly
      refine sat_neg ?_ ?_
      · obtain ⟨w, us, e, hw⟩ := Entries.first he
        refine k4.ne_punct (m := {}) rfl rfl (bad := ['}']) ?_ (by simp)
        rw [e]
        exact (free_word' hw).mono (by decide)
      · unfold parseCloud
        refine go_expect (w := c!"{") (ws := ws ++ rest) (by simpa using h1) .next rfl tokIs_lcurly
          (fun l2 _ hx h2 => ?_)
        rw [sat_txt, sat_bound, hx]
        exact cloudLoop_go hp ih _ he h2 (Ahead.bound h2) (by omega)

theorem parseOptionConstant_go (hG : G.permissive = cfg.permissive) (hl : G.loose = false)
    {s : Str} {ws : List Str} (hs : Constant G s ws) : Accepts (parseOptionConstant cfg) s ws := by
  intro T H E l rest hr h
  unfold parseOptionConstant
  rw [sat_bound]
  exact optionConstant_go hG hl _ s ws hs (Ahead.bound h) hr h

theorem parseOption_go (hG : G.permissive = cfg.permissive) (hl : G.loose = false)
    {x : OptionStmt} {ts : List Tok} (hx : OptionToks G x ts) (h : Ahead T l (words ts ++ rest)) :
    Sat H (fun r l' => bareOption r = bareOption x ∧ Ahead T l' rest) E (parseOption cfg l) := by
  obtain ⟨ns, cs, h1, h2, h3, _⟩ := hx
  rw [h3] at h
  unfold parseOption
  refine go_expect (w := c!"option") (ws := ns ++ c!"=" :: cs ++ c!";" :: rest) (by simpa using h)
    (.with_ _) rfl (tokIs_keyword rfl rfl rfl rfl) (fun l1 _ _ k1 => ?_)
  rw [sat_position]
  refine Sat.bind (parseOptionName_go hG h1 (rest := c!"=" :: cs ++ c!";" :: rest) (free_cons (by decide))
    (by simpa using k1)) ?_
  rintro r l2 ⟨rfl, k2⟩
  refine go_expect (w := c!"=") (ws := cs ++ c!";" :: rest) (by simpa using k2) .next rfl tokIs_equals
    (fun l3 _ _ k3 => ?_)
  refine Sat.bind (parseOptionConstant_go hG hl h2 (free_cons (by decide)) k3) ?_
  rintro r l4 ⟨rfl, k4⟩
  refine go_expect k4 .next rfl tokIs_semi (fun l5 _ _ k5 => ?_)
  exact ⟨rfl, k5⟩

end

end Parser

end Verif
