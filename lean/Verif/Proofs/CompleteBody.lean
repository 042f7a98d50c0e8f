import Verif.Proofs.CompleteReserved
import Verif.Proofs.ParseBody

/-!
# Enums, extensions, services and the statements of a file are accepted
-/

set_option backward.isDefEq.respectTransparency false
set_option backward.dsimp.instances true

namespace Verif
variable {T : Src}
open Spec Scanner Lexer
open M (bind_ok run_get)

/-! ## Trees without comments -/

theorem bareAll_cons {v : Visitee} {vs : List Visitee} (h : bare v ≠ .nil) :
    bareAll (v :: vs) = bare v :: bareAll vs := by
  cases v <;> first | rw [bareAll] | skip
  all_goals first | (intro _ h; simp at h) | skip
  simp [bare] at h

theorem bareAll_comment {c : Comment} {vs : List Visitee} : bareAll (.comment c :: vs) = bareAll vs := by
  rw [bareAll]

theorem bareAll_nil_cons {vs : List Visitee} : bareAll (.nil :: vs) = .nil :: bareAll vs := by
  rw [bareAll, bare]; simp

theorem bareAll_append (a b : List Visitee) : bareAll (a ++ b) = bareAll a ++ bareAll b := by
  induction a with
  | nil => rw [List.nil_append, bareAll, List.nil_append]
  | cons v vs ih =>
    rw [List.cons_append]
    by_cases h : bare v = .nil
    · cases v with
      | nil => rw [bareAll_nil_cons, bareAll_nil_cons, ih]; rfl
      | comment c => rw [bareAll_comment, bareAll_comment, ih]
      | _ => simp [bare] at h
    · rw [bareAll_cons h, bareAll_cons h, ih]; rfl

theorem bareAll_single {v : Visitee} (h : bare v ≠ .nil) : bareAll [v] = [bare v] := by
  rw [bareAll_cons h, bareAll]

theorem bareAll_bodyComments (cfg : Cfg) (cs : List Comment) : bareAll (Parser.bodyComments cfg cs) = [] := by
  unfold Parser.bodyComments
  split
  · induction cs with
    | nil => rw [List.map_nil, bareAll]
    | cons c cs ih => rw [List.map_cons, bareAll_comment, ih]
  · rw [bareAll]

theorem bare_withInline (v : Visitee) (c : Comment) : bare (v.withInline c) = bare v := by
  cases v <;> simp only [Visitee.withInline, bare] <;> rfl

/-! ## The first spelling of an element -/

theorem fieldToks_first {G : Gram} {x : Field} {ts : List Tok} (h : FieldToks G x ts) :
    ∃ w ws, words ts = w :: ws ∧ Lead w := by
  obtain ⟨hn, hi, ls, ws, os, h1, h2, h3, h4, h5, _⟩ := h
  obtain ⟨w, ws', rfl, hw⟩ := typeName_lead h2
  generalize x.isRepeated = a at h1
  generalize x.isRequired = b at h1
  generalize x.isOptional = c at h1
  cases h1 with
  | none => exact ⟨w, _, by rw [h5]; rfl, hw⟩
  | repeated => exact ⟨_, _, by rw [h5]; rfl, .inl (spelling_word (t := .kRepeated) rfl)⟩
  | required => exact ⟨_, _, by rw [h5]; rfl, .inl (spelling_word (t := .kRequired) rfl)⟩
  | optional => exact ⟨_, _, by rw [h5]; rfl, .inl (spelling_word (t := .kOptional) rfl)⟩

theorem labelled_first {a b c : Bool} {ls us : List Str} {w : Str} (h : Labelled a b c ls) (hw : Lead w) :
    ∃ w' ws, ls ++ w :: us = w' :: ws ∧ Lead w' := by
  cases h with
  | none => exact ⟨w, _, rfl, hw⟩
  | repeated => exact ⟨_, _, rfl, .inl (spelling_word (t := .kRepeated) rfl)⟩
  | required => exact ⟨_, _, rfl, .inl (spelling_word (t := .kRequired) rfl)⟩
  | optional => exact ⟨_, _, rfl, .inl (spelling_word (t := .kOptional) rfl)⟩

/-- An element starts with a name, a dot or is a semicolon. -/
theorem toks_first {G : Gram} (hj : G.junk = false) {k : Ctx} {v : Visitee} {ts : List Tok}
    (h : Toks G k v ts) (hv : bare v ≠ .nil) : ∃ w ws, words ts = w :: ws ∧ (Lead w ∨ w = c!";") := by
  have kw : ∀ {t : Token} {k : Str} {ws us : List Str}, spelling t = some k → ws = k :: us →
      ∃ w ws', ws = w :: ws' ∧ (Lead w ∨ w = c!";") :=
    fun h e => ⟨_, _, e, .inl (.inl (spelling_word h))⟩
  cases h with
  | comment => simp [bare] at hv
  | nil => simp [bare] at hv
  | empty _ e t ht => exact ⟨_, _, by simp [words, ht]; rfl, .inr rfl⟩
  | junk _ _ _ _ hjj => rw [hj] at hjj; simp at hjj
  | importStmt x ts h =>
    obtain ⟨_, ms, _, h, _⟩ := h
    exact kw (t := .kImport) rfl (h.trans rfl)
  | package x ts h =>
    obtain ⟨_, _, h, _⟩ := h
    exact kw (t := .kPackage) rfl (h.trans rfl)
  | option k x ts _ h =>
    obtain ⟨_, h⟩ := Parser.optionToks_first h
    exact kw (t := .kOption) rfl h
  | message k x hd bs cl _ h => exact kw (t := .kMessage) rfl (by rw [Parser.words_append, Parser.words_append, h]; rfl)
  | group x ls c w hd bs cl hl h =>
    obtain ⟨w', ws, e, hw⟩ := labelled_first (us := [x.groupName, c!"=", x.fieldNumber, c!"{"] ++ words bs ++ words cl)
      hl (.inl (spelling_word (t := .kGroup) (w := c!"group") rfl))
    exact ⟨w', ws, by rw [Parser.words_append, Parser.words_append, h, ← e]; simp, .inl hw⟩
  | enum k x hd bs cl _ h => exact kw (t := .kEnum) rfl (by rw [Parser.words_append, Parser.words_append, h]; rfl)
  | extend k x ws hd bs cl _ _ h =>
    exact kw (t := .kExtend) rfl (by rw [Parser.words_append, Parser.words_append, h]; rfl)
  | service x hd bs cl h => exact kw (t := .kService) rfl (by rw [Parser.words_append, Parser.words_append, h]; rfl)
  | field k x ts _ h =>
    obtain ⟨w, ws, e, hw⟩ := fieldToks_first h
    exact ⟨w, ws, e, .inl hw⟩
  | enumField x ts h =>
    obtain ⟨hw, sg, w, os, _, _, _, _, h, _⟩ := h
    exact ⟨_, _, h.trans rfl, .inl (.inl hw)⟩
  | oneof x ts h =>
    obtain ⟨_, hd, is, cl, h, _, _, rfl, _⟩ := h
    exact kw (t := .kOneof) rfl (by rw [Parser.words_append, Parser.words_append, h]; rfl)
  | mapField x ts h =>
    obtain ⟨_, _, _, _, _, _, _, h, _⟩ := h
    exact kw (t := .kMap) rfl (h.trans rfl)
  | reserved k x ts _ h =>
    rcases h with ⟨_, _, _, h, _⟩ | ⟨_, _, _, _, _, h, _⟩
    · exact kw (t := .kReserved) rfl (h.trans rfl)
    · exact kw (t := .kReserved) rfl (h.trans rfl)
  | extensions x ts h =>
    obtain ⟨a, rs, ds, b, h, _, _, _, rfl, _⟩ := h
    exact kw (t := .kExtensions) rfl (by rw [List.cons_append, List.cons_append, Parser.words_cons, h])
  | rpc x ts h =>
    obtain ⟨_, hd, rq, rt, rs, tl, h, _, _, _, _, rfl, _⟩ := h
    exact kw (t := .kRpc) rfl (by rw [Parser.words_append, Parser.words_append, Parser.words_append, h]; rfl)

/-- What may stand at the start of the rest of a body. -/
def Start (ws : List Str) : Prop := ∃ w us, ws = w :: us ∧ (Lead w ∨ w = c!";")

/-- The first element of a body that is not a comment. -/
theorem body_uncons {G : Gram} {k : Ctx} {vs : List Visitee} : ∀ {ts : List Tok}, Body G k vs ts →
    .nil ∉ vs → (ts = [] ∧ bareAll vs = []) ∨
    ∃ v ts1 vs' ts2, Toks G k v ts1 ∧ bare v ≠ .nil ∧ Body G k vs' ts2 ∧ ts = ts1 ++ ts2 ∧
      bareAll vs = bare v :: bareAll vs' ∧ .nil ∉ vs' ∧ (∀ u ∈ vs', u ∈ vs) ∧ v ∈ vs ∧
      (G.junk = false → G.permissive = true → Tight ts1 ts2) := by
  induction vs with
  | nil =>
    intro ts h _
    cases h
    exact .inl ⟨rfl, by rw [bareAll]⟩
  | cons v vs ih =>
    intro ts h hn
    cases h with
    | cons _ v ts1 vs ts2 h1 h2 h3 =>
      by_cases hv : bare v = .nil
      · cases v with
        | nil => simp at hn
        | comment c =>
          cases h1 with
          | comment =>
          rw [bareAll_comment]
          rcases ih h2 (by simp at hn; exact hn) with ⟨h4, h5⟩ | ⟨v', ts1, vs', ts2', g1, g2, g3, g4, g5, g6, g7, g8, g9⟩
          · exact .inl ⟨by simpa using h4, h5⟩
          · exact .inr ⟨v', ts1, vs', ts2', g1, g2, g3, by simpa using g4, g5, g6,
              fun u hu => by simp [g7 u hu], by simp [g8], g9⟩
        | _ => simp [bare] at hv
      · refine .inr ⟨v, ts1, vs, ts2, h1, hv, h2, rfl, bareAll_cons hv, ?_, ?_, by simp, h3⟩
        · intro h; exact hn (by simp [h])
        · intro u hu; simp [hu]

/-- What follows an element. -/
theorem shut_of_tight' {G : Gram} {cfg : Cfg} {k : Ctx} {vs : List Visitee} {ts1 ts2 : List Tok}
    {rest : List Str} (hG : G.permissive = cfg.permissive) (hj : G.junk = false)
    (hb : Body G k vs ts2) (hn : .nil ∉ vs)
    (ht : G.junk = false → G.permissive = true → Tight ts1 ts2)
    (hr : ts2 = [] → Parser.Shut cfg ts1 rest) :
    Parser.Shut cfg ts1 (words ts2 ++ rest) := by
  intro hp hl
  have := ht hj (hG.trans hp) hl
  rcases body_uncons hb hn with ⟨rfl, _⟩ | ⟨v, a, vs', b, g1, g2, _, rfl, _⟩
  · exact hr rfl hp hl
  · obtain ⟨w, ws, e, hw⟩ := toks_first hj g1 g2
    rw [Parser.words_append, e] at this ⊢
    rcases hw with hw | rfl
    · exact hw.free.mono (by decide)
    · simp at this

theorem shut_of_tight {G : Gram} {cfg : Cfg} {k : Ctx} {vs : List Visitee} {ts1 ts2 : List Tok}
    {rest : List Str} (hG : G.permissive = cfg.permissive) (hj : G.junk = false)
    (hb : Body G k vs ts2) (hn : .nil ∉ vs)
    (ht : G.junk = false → G.permissive = true → Tight ts1 ts2) (hr : Free [';'] rest) :
    Parser.Shut cfg ts1 (words ts2 ++ rest) :=
  shut_of_tight' hG hj hb hn ht (fun _ _ _ => hr)

/-- The token of a word that starts a statement. -/
theorem Ahead.keyword {l : Lexer} {w : Str} {ws : List Str} {t : Token} (h : Ahead T l (w :: ws)) (hs : spelling t = some w) :
    (nextSt .kw l).token = t :=
  (h.next rfl (tokIs_keyword rfl rfl rfl hs)).1

theorem Ahead.semi_keyword {l : Lexer} {ws : List Str} (h : Ahead T l (c!";" :: ws)) : (nextSt .kw l).token = .semicolon :=
  (h.next rfl (tokIs_semi)).1

namespace Parser

section
variable {H : Halt → Prop} {E : Err → Lexer → Prop} {l : Lexer} {rest : List Str} {cfg : Cfg} {G : Gram}

theorem maybeScan_log {v : Visitee} {ws : List Str} (h : Ahead T l ws) (h1 : v ≠ .nil) (h2 : ∀ c, v ≠ .comment c) :
    Sat H (fun _ l' => l'.log = l.log) E (maybeScanInlineComment v l) := by
  unfold maybeScanInlineComment
  refine Sat.bind (parseInlineComment_log h) (fun c l1 hi => ?_)
  cases c with
  | none => exact hi
  | some c =>
    cases v with
    | nil => exact absurd rfl h1
    | comment x => exact absurd rfl (h2 x)
    | _ => exact hi

theorem maybeScan_go {α : Type} {Q : α → Lexer → Prop} {f : Visitee → P α} {v : Visitee} {ws : List Str}
    (hv : bare v ≠ .nil) (h : Ahead T l ws)
    (hf : ∀ r l', bare r = bare v → Ahead T l' ws → Sat H Q E (f r l')) :
    Sat H Q E ((maybeScanInlineComment v >>= f) l) := by
  refine Sat.bind ((maybeScan_sat h.good (by rintro rfl; simp [bare] at hv)
    (by rintro c rfl; simp [bare] at hv)).also (maybeScan_log h (by rintro rfl; simp [bare] at hv)
      (by rintro c rfl; simp [bare] at hv))) ?_
  rintro r l1 ⟨⟨o, rfl, ho⟩, hlog⟩
  refine hf _ l1 ?_ (h.took ho.nil hlog)
  cases o with
  | none => rfl
  | some c => exact bare_withInline v c

/-- A failed attempt at a semicolon. -/
def AtSemi (T : Src) (rest : List Str) : Err → Lexer → Prop :=
  fun _ l' => ∃ l0, l' = nextSt {} l0 ∧ Ahead T l0 (c!";" :: rest)

theorem recoverEmpty_go {e : Err} (h : AtSemi T rest e l) :
    Sat H (fun r l' => r = .emptyStatement {} ∧ Ahead T l' rest) E (recoverEmpty e l) := by
  obtain ⟨l0, rfl, h⟩ := h
  unfold recoverEmpty
  refine sat_unNext ?_
  refine go_empty (h.putBack {}) (fun l' h => ?_)
  exact ⟨rfl, h⟩

theorem go_recover {α : Type} {m : P α} {f : Except Err α → P Visitee} {Q : Visitee → Lexer → Prop}
    (h : Sat H (fun _ _ => False) (AtSemi T rest) (m l))
    (hf : ∀ e l', AtSemi T rest e l' → Sat H Q E (f (.error e) l')) :
    Sat H Q E ((M.attempt m >>= f) l) := by
  refine Sat.bind (Q := fun r l' => ∃ e, r = .error e ∧ AtSemi T rest e l')
    (Sat.attempt h (fun _ _ h => h.elim) (fun e _ h => ⟨e, rfl, h⟩)) ?_
  rintro r l' ⟨e, rfl, h⟩
  exact hf e l' h

/-- The end of a body. -/
theorem closeBody_go {tl : List Str} {cs : List Comment} {stmts : List Visitee} {il : Option Comment}
    (hc : tl = [] ∨ (cfg.permissive = true ∧ tl = [c!";"]))
    (hf : cfg.permissive = true → tl = [] → Free [';'] rest) (h : Ahead T l (c!"}" :: tl ++ rest)) :
    Sat H (fun r l' => bareAll r.1 = bareAll stmts ∧ Ahead T l' rest) E (closeBody cfg cs stmts il l) := by
  unfold closeBody
  refine sat_next h.good ?_
  obtain ⟨_, _, h3⟩ := Ahead.next (w := c!"}") (ws := tl ++ rest) h (m := {}) rfl tokIs_rcurly
  refine Sat.bind (blockLastPos_go hc hf h3) ?_
  intro p l1 k1
  exact ⟨by simp only [bareAll_append, bareAll_bodyComments, List.append_nil], k1⟩

/-- The token that is peeked at before a right curly. -/
theorem Ahead.not_rcurly {w : Str} {ws : List Str} (hw : Lead w ∨ w = c!";") (h : Ahead T l (w :: ws)) :
    (nextSt .kw l).token ≠ .rightCurly := by
  refine h.ne_punct rfl rfl (bad := ['}']) ?_ (by simp)
  rcases hw with hw | rfl
  · exact hw.free.mono (by decide)
  · exact free_cons (by decide)

/-! ## enum.go -/

theorem parseEnumValueOptions_go (hG : G.permissive = cfg.permissive) (hl : G.loose = false)
    {xs : List FieldOption} {ws : List Str} (hs : FieldOptions G xs ws) (hr : Free ['['] rest)
    (h : Ahead T l (ws ++ rest)) :
    Sat H (fun r l' => r = xs ∧ Ahead T l' rest) E (parseEnumValueOptions cfg l) := by
  unfold parseEnumValueOptions
  refine sat_next h.good ?_
  rw [sat_tok]
  cases hs with
  | none =>
    have h4 : (nextSt {} l).token ≠ .leftSquare := h.ne_punct rfl rfl hr (by simp)
    refine sat_pos h4 ?_
    refine sat_unNext ?_
    exact ⟨rfl, h.putBack {}⟩
  | some xs ws hxs =>
    obtain ⟨a, as, b, bs, h1, h2, rfl, rfl⟩ := FieldOptionList.split hxs
    obtain ⟨h4, _, h3⟩ := Ahead.next (w := c!"[") (ws := as ++ (bs ++ c!"]" :: rest)) (by simpa using h)
      (m := {}) rfl tokIs_lsquare
    refine sat_neg (by simp [h4]) ?_
    refine Sat.bind (orUnexpected_go (parseFieldOption_go hG hl h1 (fieldOptionTail_free h2) h3)) ?_
    rintro r l2 ⟨rfl, k2⟩
    rw [sat_bound]
    refine Sat.bind (fieldOptionsLoop_go hG hl _ h2 k2 (Ahead.bound k2)) ?_
    rintro r l3 ⟨rfl, k3⟩
    refine go_expect k3 .next rfl tokIs_rsquare (fun l5 _ _ k5 => ?_)
    exact ⟨rfl, k5⟩

theorem parseSign_go {sg : List Str} (hs : sg = [] ∨ sg = [c!"-"]) (hr : Free ['-'] rest)
    (h : Ahead T l (sg ++ rest)) :
    Sat H (fun r l' => r = sg.flatten ∧ Ahead T l' rest) E (parseSign l) := by
  unfold parseSign
  refine sat_run (consumeToken_eq h.good _) ?_
  rw [sat_tok]
  rcases hs with rfl | rfl
  · have h1 : (nextSt {} l).token ≠ .minus := h.ne_punct rfl rfl hr (by simp)
    rw [if_neg h1]
    refine sat_neg (by simp [putBack]) ?_
    exact ⟨rfl, h.putBack {}⟩
  · obtain ⟨h1, _, h3⟩ := Ahead.next (w := c!"-") (ws := rest) h (m := {}) rfl (tokIs_punct (t := .minus) rfl (by simp))
    rw [if_pos h1]
    refine sat_pos h1 ?_
    exact ⟨rfl, h3⟩

theorem parseEnumField_go (hG : G.permissive = cfg.permissive) (hl : G.loose = false)
    {x : EnumField} {ts : List Tok} (hx : EnumFieldToks G x ts) (h : Ahead T l (words ts ++ rest)) :
    Sat H (fun r l' => bareEnumField r = bareEnumField x ∧ Ahead T l' rest) E (parseEnumField cfg l) := by
  obtain ⟨hn, sg, w, os, h1, h2, h3, h4, h5, _⟩ := hx
  rw [h5] at h
  unfold parseEnumField
  refine go_expect (w := x.ident) (by simpa using h) .next rfl (tokIs_ident hn) (fun l1 _ e1 k1 => ?_)
  rw [sat_position, sat_txt]
  refine go_expect k1 .next rfl tokIs_equals (fun l2 _ _ k2 => ?_)
  have hm : Free ['-'] (w :: (os ++ c!";" :: rest)) := by
    obtain ⟨c, w', rfl, hc⟩ := intLit_head h2
    refine free_cons ?_
    have key : ∀ c ∈ decimals, c ∉ ['-'] := by decide
    exact key c hc
  refine Sat.bind (parseSign_go h1 hm (by simpa using k2)) ?_
  rintro r l3 ⟨rfl, k3⟩
  refine go_expect k3 (.with_ _) rfl (tokIs_int rfl h2) (fun l4 _ e4 k4 => ?_)
  rw [sat_txt]
  refine Sat.bind (parseEnumValueOptions_go hG hl h4 (free_cons (by decide)) k4) ?_
  rintro r l5 ⟨rfl, k5⟩
  refine go_expect k5 .next rfl tokIs_semi (fun l6 _ _ k6 => ?_)
  refine ⟨?_, k6⟩
  simp only [bareEnumField, e1, e4, h3]

theorem parseEnumField_semi (h : Ahead T l (c!";" :: rest)) :
    Sat H (fun _ _ => False) (AtSemi T rest) (parseEnumField cfg l) := by
  unfold parseEnumField
  refine Sat.bind (Q := fun _ _ => False) ?_ (fun _ _ h => h.elim)
  unfold expect
  refine sat_next h.good ?_
  rw [sat_tok]
  refine sat_neg (by simp [(h.next (m := {}) rfl tokIs_semi).1]) ?_
  exact ⟨l, rfl, h⟩

/-- The statement of a body that is parsed from an element. -/
abbrev Stmt (T : Src) (v : Visitee) (rest : List Str) : Visitee → Lexer → Prop :=
  fun r l' => bare r = bare v ∧ Ahead T l' rest

theorem enumStmt_go (hG : G.permissive = cfg.permissive) (hl : G.loose = false) (hj : G.junk = false)
    {v : Visitee} {ts : List Tok} (hx : Toks G .enum v ts) (hv : bare v ≠ .nil) {cs : List Comment} {l0 : Lexer}
    (h0 : Ahead T l0 (words ts ++ rest)) (h : Ahead T l (words ts ++ rest)) :
    Sat H (Stmt T v rest) E (enumStmt cfg cs (nextSt .kw l0).token l) := by
  unfold enumStmt
  cases hx with
  | comment => simp [bare] at hv
  | empty _ e t ht =>
    rw [show words [t] ++ rest = c!";" :: rest by simp [words, ht]] at h h0
    rw [h0.semi_keyword]
    refine sat_neg (by simp) (sat_neg (by simp) ?_)
    refine go_recover (parseEnumField_semi h) (fun er l' h => (recoverEmpty_go h).mono ?_ (fun _ _ h => h))
    rintro r l' ⟨rfl, h⟩
    exact ⟨rfl, h⟩
  | junk _ _ _ _ hjj => rw [hj] at hjj; simp at hjj
  | option k x ts _ hx =>
    obtain ⟨ws, e⟩ := optionToks_first hx
    refine sat_pos (Ahead.keyword (by rw [e] at h0; exact h0) rfl) ?_
    refine Sat.bind (parseOption_go hG hl hx h) ?_
    rintro r l1 ⟨h1, k1⟩
    exact ⟨by simp only [bare]; exact congrArg _ h1, k1⟩
  | message _ _ _ _ _ hk => simp at hk
  | enum _ _ _ _ _ hk => simp at hk
  | extend _ _ _ _ _ _ hk => simp at hk
  | field _ _ _ hk => simp at hk
  | enumField x ts hx n1 n2 =>
    have hw : ∃ w ws, words ts = w :: ws ∧ Lead w ∧ w ≠ c!"option" ∧ w ≠ c!"reserved" := by
      obtain ⟨hw, sg, w, os, _, _, _, _, h, _⟩ := hx
      exact ⟨_, _, h.trans rfl, .inl hw, n1, n2⟩
    obtain ⟨w, ws, e, hw, n1, n2⟩ := hw
    rw [e] at h0
    refine sat_neg (Ahead.ne_keyword h0 hw rfl n1) ?_
    refine sat_neg (Ahead.ne_keyword h0 hw rfl n2) ?_
    refine go_attempt (parseEnumField_go hG hl hx h) ?_
    rintro r l1 ⟨h1, k1⟩
    exact ⟨by simp only [bare]; exact congrArg _ h1, k1⟩
  | reserved k x ts _ hx =>
    have e : ∃ ws, words ts = c!"reserved" :: ws := by
      rcases hx with ⟨_, _, _, h, _⟩ | ⟨_, _, _, _, _, h, _⟩
      · exact ⟨_, h.trans rfl⟩
      · exact ⟨_, h.trans rfl⟩
    obtain ⟨ws, e⟩ := e
    have h1 := Ahead.keyword (t := .kReserved) (by rw [e] at h0; exact h0) rfl
    refine sat_neg (by simp [h1]) ?_
    refine sat_pos h1 ?_
    refine Sat.bind (parseReserved_go hl hx h) ?_
    rintro r l1 ⟨h1, k1⟩
    exact ⟨by simp only [bare]; exact congrArg _ h1, k1⟩

/-- What the loop over a body returns. -/
abbrev Loop (T : Src) (acc vs : List Visitee) (rest : List Str) : Body → Lexer → Prop :=
  fun r l' => bareAll r.1 = bareAll acc ++ bareAll vs ∧ Ahead T l' rest

theorem loop_step {acc vs vs' : List Visitee} {v r : Visitee} {res : Res Lexer Err Body}
    (e : bareAll vs = bare v :: bareAll vs') (hv : bare v ≠ .nil) (hr : bare r = bare v)
    (h : Sat H (Loop T (acc ++ [r]) vs' rest) E res) : Sat H (Loop T acc vs rest) E res := by
  refine h.mono ?_ (fun _ _ h => h)
  rintro b l' ⟨h1, h2⟩
  refine ⟨?_, h2⟩
  rw [h1, bareAll_append, bareAll_single (by rw [hr]; exact hv), e, hr]
  simp

theorem toks_pos {ts : List Tok} {w : Str} {ws : List Str} (h : words ts = w :: ws) : 0 < ts.length := by
  have := congrArg List.length h
  simp [words] at this; omega

theorem body_noNil {k : Ctx} {vs : List Visitee} {ts : List Tok} (h : Spec.Body G k vs ts) (hk : k ≠ .file) :
    .nil ∉ vs := by
  induction vs generalizing ts with
  | nil => simp
  | cons v vs ih =>
    cases h with
    | cons _ v ts vs ts' h1 h2 _ =>
      simp only [List.mem_cons, not_or]
      refine ⟨?_, ih h2⟩
      rintro rfl
      cases h1
      exact hk rfl

theorem enumLoop_go (hG : G.permissive = cfg.permissive) (hl : G.loose = false) (hj : G.junk = false)
    {tl : List Str} {il : Option Comment} (hc : tl = [] ∨ (cfg.permissive = true ∧ tl = [c!";"]))
    (hf : cfg.permissive = true → tl = [] → Free [';'] rest) (n : Nat) :
    ∀ {l : Lexer} {acc vs : List Visitee} {ts : List Tok}, Spec.Body G .enum vs ts →
      Ahead T l (words ts ++ c!"}" :: (tl ++ rest)) → ts.length < n →
    Sat H (Loop T acc vs rest) E (enumLoop cfg il n acc l) := by
  induction n with
  | zero => intro _ _ _ _ _ _ h; omega
  | succ n ih =>
    intro l acc vs ts hb h hn
    unfold enumLoop
    refine go_comments h (fun cs l1 h => ?_)
    refine sat_peekKeyword h.good ?_
    rcases body_uncons hb (body_noNil hb (by simp)) with ⟨rfl, e⟩ |
      ⟨v, ts1, vs', ts2, g1, g2, g3, rfl, e, _, _, _, g9⟩
    · refine sat_pos (h.next rfl tokIs_rcurly).1 ?_
      refine (closeBody_go hc hf (h.putBack _)).mono ?_ (fun _ _ h => h)
      rintro r l' ⟨h1, h2⟩
      exact ⟨by rw [h1, e, List.append_nil], h2⟩
    · obtain ⟨w, ws, ew, hw⟩ := toks_first hj g1 g2
      refine sat_neg (Ahead.not_rcurly (w := w) (ws := ws ++ (words ts2 ++ c!"}" :: (tl ++ rest))) hw
        (by rw [words_append, ew] at h; simpa using h)) ?_
      rw [words_append, List.append_assoc] at h
      refine Sat.bind (enumStmt_go hG hl hj g1 g2 h (h.putBack _)) ?_
      rintro r l2 ⟨h1, k2⟩
      refine maybeScan_go (by rw [h1]; exact g2) k2 (fun r' l3 h3 k3 => ?_)
      have := toks_pos ew
      exact loop_step e g2 (h3.trans h1) (ih g3 k3 (by simp at hn; omega))

theorem parseEnum_go (hG : G.permissive = cfg.permissive) (hl : G.loose = false) (hj : G.junk = false)
    {x : Enum} {hd bs cl : List Tok} (h1 : words hd = [c!"enum", x.enumName, c!"{"]) (hn : Word x.enumName)
    (hb : Spec.Body G .enum x.enumBody bs) (hc : Close G cl) (hs : Shut cfg (hd ++ bs ++ cl) rest)
    (h : Ahead T l (words (hd ++ bs ++ cl) ++ rest)) :
    Sat H (fun r l' => (r.enumName = x.enumName ∧ bareAll r.enumBody = bareAll x.enumBody) ∧ Ahead T l' rest) E
      (parseEnum cfg l) := by
  obtain ⟨tl, e, h4⟩ := Close.split hc
  rw [words_append, words_append, h1, e] at h
  unfold parseEnum
  refine go_expect (w := c!"enum") (by simpa using h) (.with_ _) rfl (tokIs_keyword rfl rfl rfl rfl)
    (fun l1 _ _ k1 => ?_)
  rw [sat_position]
  refine go_expect k1 .next rfl (tokIs_ident hn) (fun l2 _ e2 k2 => ?_)
  rw [sat_txt]
  refine Sat.bind (Q := Loop T [] x.enumBody rest) ?_ ?_
  · unfold parseEnumBody
    refine go_expect k2 .next rfl tokIs_lcurly (fun l3 _ _ k3 => ?_)
    refine go_inline k3 (fun c l4 k4 => ?_)
    rw [sat_bound]
    refine enumLoop_go hG hl hj (by rw [← hG]; exact h4) (hs.close (by simp only [words_append, e]; rfl)) _ hb k4 ?_
    have := Ahead.bound (ws := words bs) k4
    simpa [words] using this
  rintro ⟨b, c, p⟩ l3 ⟨e3, k3⟩
  rw [bareAll, List.nil_append] at e3
  exact ⟨⟨e2, e3⟩, k3⟩

/-! ## extend.go -/

theorem parseField_semi (h : Ahead T l (c!";" :: rest)) :
    Sat H (fun _ _ => False) (AtSemi T rest) (parseField cfg l) := by
  unfold parseField
  refine sat_nextWith h.good ?_
  rw [sat_position]
  refine Sat.bind (Q := fun _ l' => Ahead T l' (c!";" :: rest)) ?_ ?_
  · have h1 := h.semi_keyword
    unfold parseLabel
    rw [sat_tok]
    refine sat_neg (by simp [h1]) (sat_neg (by simp [h1]) (sat_neg (by simp [h1]) ?_))
    refine sat_unNext ?_
    exact h.putBack _
  intro r l1 h
  refine Sat.bind (Q := fun _ _ => False) ?_ (fun _ _ h => h.elim)
  unfold orUnexpected
  refine Sat.bind (Q := fun r l' => (∃ e, r = .error e) ∧ ∃ l0, l' = nextSt {} l0 ∧ Ahead T l0 (c!";" :: rest)) ?_ ?_
  · refine Sat.attempt (Q := fun _ _ => False) (E := AtSemi T rest) ?_ (fun _ _ h => h.elim) (fun e _ h => ⟨⟨e, rfl⟩, h⟩)
    unfold parseType
    refine sat_next h.good ?_
    rw [sat_txt]
    have h2 := (h.next (m := {}) rfl tokIs_semi).2.1
    refine sat_neg (by rw [h2]; decide) ?_
    refine sat_unNext ?_
    replace h := h.putBack {}
    generalize putBack {} l1 = l2 at h
    unfold readMessageType
    refine sat_next h.good ?_
    rw [sat_position]
    refine Sat.bind (Q := fun _ l' => Ahead T l' (c!";" :: rest)) ?_ ?_
    · unfold readLeadingDot
      rw [sat_tok]
      refine sat_neg (by simp [(h.next (m := {}) rfl tokIs_semi).1]) ?_
      refine sat_unNext ?_
      exact h.putBack {}
    · intro r l3 h
      refine sat_next h.good ?_
      rw [sat_bound]
      refine Sat.bind (Q := fun _ _ => False) ?_ (fun _ _ h => h.elim)
      unfold readMessageTypeLoop
      have ht := (h.next (m := {}) rfl tokIs_semi).1
      refine sat_run (m := Lexer.isEOF) (a := false) (l' := nextSt {} l3) ?_ ?_
      · show Res.ok _ _ = _
        rw [ht]; rfl
      refine sat_neg (by simp) ?_
      rw [sat_tok]
      refine sat_pos (by simp [ht]) ?_
      exact ⟨l3, rfl, h⟩
  · rintro r l2 ⟨⟨e, rfl⟩, h⟩
    exact h

theorem extendStmt_go (hG : G.permissive = cfg.permissive) (hl : G.loose = false) (hj : G.junk = false)
    {v : Visitee} {ts : List Tok} (hx : Toks G .extend v ts) (hv : bare v ≠ .nil) {cs : List Comment}
    (h : Ahead T l (words ts ++ rest)) :
    Sat H (Stmt T v rest) E (extendStmt cfg cs l) := by
  unfold extendStmt
  cases hx with
  | comment => simp [bare] at hv
  | empty _ e t ht =>
    rw [show words [t] ++ rest = c!";" :: rest by simp [words, ht]] at h
    refine go_recover (parseField_semi h) (fun er l' h => (recoverEmpty_go h).mono ?_ (fun _ _ h => h))
    rintro r l' ⟨rfl, h⟩
    exact ⟨rfl, h⟩
  | junk _ _ _ _ hjj => rw [hj] at hjj; simp at hjj
  | option _ _ _ hk => simp at hk
  | message _ _ _ _ _ hk => simp at hk
  | enum _ _ _ _ _ hk => simp at hk
  | extend _ _ _ _ _ _ hk => simp at hk
  | reserved _ _ _ hk => simp at hk
  | field k x ts _ hx =>
    refine go_attempt (parseField_go hG hl hx h) ?_
    rintro r l1 ⟨h1, k1⟩
    exact ⟨by simp only [bare]; exact congrArg _ h1, k1⟩

theorem extendLoop_go (hG : G.permissive = cfg.permissive) (hl : G.loose = false) (hj : G.junk = false)
    {tl : List Str} {il : Option Comment} (hc : tl = [] ∨ (cfg.permissive = true ∧ tl = [c!";"]))
    (hf : cfg.permissive = true → tl = [] → Free [';'] rest) (n : Nat) :
    ∀ {l : Lexer} {acc vs : List Visitee} {ts : List Tok}, Spec.Body G .extend vs ts →
      Ahead T l (words ts ++ c!"}" :: (tl ++ rest)) → ts.length < n →
    Sat H (Loop T acc vs rest) E (extendLoop cfg il n acc l) := by
  induction n with
  | zero => intro _ _ _ _ _ _ h; omega
  | succ n ih =>
    intro l acc vs ts hb h hn
    unfold extendLoop
    refine go_comments h (fun cs l1 h => ?_)
    refine sat_peekKeyword h.good ?_
    rcases body_uncons hb (body_noNil hb (by simp)) with ⟨rfl, e⟩ |
      ⟨v, ts1, vs', ts2, g1, g2, g3, rfl, e, _, _, _, g9⟩
    · refine sat_pos (h.next rfl tokIs_rcurly).1 ?_
      refine (closeBody_go hc hf (h.putBack _)).mono ?_ (fun _ _ h => h)
      rintro r l' ⟨h1, h2⟩
      exact ⟨by rw [h1, e, List.append_nil], h2⟩
    · obtain ⟨w, ws, ew, hw⟩ := toks_first hj g1 g2
      refine sat_neg (Ahead.not_rcurly (w := w) (ws := ws ++ (words ts2 ++ c!"}" :: (tl ++ rest))) hw
        (by rw [words_append, ew] at h; simpa using h)) ?_
      rw [words_append, List.append_assoc] at h
      refine Sat.bind (extendStmt_go hG hl hj g1 g2 (h.putBack _)) ?_
      rintro r l2 ⟨h1, k2⟩
      refine maybeScan_go (by rw [h1]; exact g2) k2 (fun r' l3 h3 k3 => ?_)
      have := toks_pos ew
      exact loop_step e g2 (h3.trans h1) (ih g3 k3 (by simp at hn; omega))

/-- The body of an extension or message, which is read in another way if it is empty. -/
theorem emptyBody_go {k : Ctx} {vs : List Visitee} {bs : List Tok} {tl : List Str} {f : P Body}
    (hj : G.junk = false) (hk : k ≠ .file) (hb : Spec.Body G k vs bs)
    (hc : tl = [] ∨ (cfg.permissive = true ∧ tl = [c!";"]))
    (hf : cfg.permissive = true → tl = [] → Free [';'] rest)
    (h : Ahead T l (words bs ++ c!"}" :: (tl ++ rest)))
    (hl : ∀ l', Ahead T l' (words bs ++ c!"}" :: (tl ++ rest)) → Sat H (Loop T [] vs rest) E (f l')) :
    Sat H (Loop T [] vs rest) E ((do
      next
      let t ← tok
      if t = Token.rightCurly then
        let lastPos ← blockLastPos cfg
        return ([], none, lastPos)
      else
        unNext
        f) l) := by
  refine sat_next h.good ?_
  rw [sat_tok]
  rcases body_uncons hb (body_noNil hb hk) with ⟨rfl, e⟩ |
    ⟨v, ts1, vs', ts2, g1, g2, g3, rfl, e, _, _, _, g9⟩
  · obtain ⟨h1, _, h3⟩ := h.next (m := {}) rfl tokIs_rcurly
    refine sat_pos h1 ?_
    refine Sat.bind (blockLastPos_go hc hf h3) ?_
    intro p l1 k1
    exact ⟨by rw [e, List.append_nil], k1⟩
  · obtain ⟨w, ws, ew, hw⟩ := toks_first hj g1 g2
    have hne : (nextSt {} l).token ≠ .rightCurly := by
      rw [words_append, ew] at h
      refine h.ne_punct rfl rfl (bad := ['}']) ?_ (by simp)
      rcases hw with hw | rfl
      · exact hw.free.mono (by decide)
      · exact free_cons (by decide)
    refine sat_neg hne ?_
    refine sat_unNext ?_
    exact hl _ (h.putBack {})

theorem parseExtend_go (hG : G.permissive = cfg.permissive) (hl : G.loose = false) (hj : G.junk = false)
    {x : Extend} {ws : List Str} {hd bs cl : List Tok} (hm : MessageType x.messageType ws)
    (h1 : words hd = c!"extend" :: ws ++ [c!"{"])
    (hb : Spec.Body G .extend x.extendBody bs) (hc : Close G cl) (hs : Shut cfg (hd ++ bs ++ cl) rest)
    (h : Ahead T l (words (hd ++ bs ++ cl) ++ rest)) :
    Sat H (fun r l' => (r.messageType = x.messageType ∧ bareAll r.extendBody = bareAll x.extendBody) ∧ Ahead T l' rest) E
      (parseExtend cfg l) := by
  obtain ⟨tl, e, h4⟩ := Close.split hc
  rw [words_append, words_append, h1, e] at h
  unfold parseExtend
  refine go_expect (w := c!"extend") (ws := ws ++ (c!"{" :: (words bs ++ c!"}" :: (tl ++ rest))))
    (by simpa using h) (.with_ _) rfl (tokIs_keyword rfl rfl rfl rfl)
    (fun l1 _ _ k1 => ?_)
  rw [sat_position]
  refine Sat.bind (readMessageType_go hm (free_cons (by decide)) k1) ?_
  rintro ⟨r, p⟩ l2 ⟨e2, k2⟩
  refine Sat.bind (Q := Loop T [] x.extendBody rest) ?_ ?_
  · unfold parseExtendBody
    refine go_expect k2 .next rfl tokIs_lcurly (fun l3 _ _ k3 => ?_)
    refine go_inline k3 (fun c l4 k4 => ?_)
    have hf := hs.close (tl := tl) (by simp only [words_append, e]; rfl)
    refine emptyBody_go hj (by simp) hb (by rw [← hG]; exact h4) hf k4 (fun l5 k5 => ?_)
    rw [sat_bound]
    refine extendLoop_go hG hl hj (by rw [← hG]; exact h4) hf _ hb k5 ?_
    have := Ahead.bound (ws := words bs) k5
    simpa [words] using this
  rintro ⟨b, c, p⟩ l3 ⟨e3, k3⟩
  rw [bareAll, List.nil_append] at e3
  exact ⟨⟨e2, e3⟩, k3⟩

/-! ## service.go -/

theorem parseRPCMessage_go {x : RPCMessage} {ts : List Tok} (hx : RPCMessageToks x ts)
    (h : Ahead T l (words ts ++ rest)) :
    Sat H (fun r l' => bareRPCMessage r = bareRPCMessage x ∧ Ahead T l' rest) E (parseRPCMessage l) := by
  obtain ⟨ws, h1, h2, h3, _⟩ := hx
  rw [h3] at h
  unfold parseRPCMessage
  refine go_expect (w := c!"(") (ws := (if x.isStream then [c!"stream"] else []) ++ (ws ++ c!")" :: rest))
    (by simpa using h) .next rfl tokIs_lparen (fun l1 _ _ k1 => ?_)
  rw [sat_position]
  refine sat_nextWith k1.good ?_
  rw [sat_tok]
  cases hx : x.isStream with
  | false =>
    rw [hx] at k1
    obtain ⟨w, ws', rfl, hw⟩ := messageType_lead h1
    have hne := Ahead.ne_keyword (w := w) (ws := ws' ++ c!")" :: rest) (by simpa using k1) hw (t := .kStream) rfl
      (by simpa using h2 hx)
    refine sat_pos hne ?_
    refine sat_unNext ?_
    refine Sat.bind (readMessageType_go h1 (free_cons (by decide)) (k1.putBack _)) ?_
    rintro ⟨r, p⟩ l2 ⟨e2, k2⟩
    refine go_expect k2 .next rfl tokIs_rparen (fun l3 _ _ k3 => ?_)
    refine ⟨?_, k3⟩
    simp only at e2
    simp only [bareRPCMessage, e2, hx]
  | true =>
    rw [hx] at k1
    obtain ⟨h1', _, k2⟩ := Ahead.next (w := c!"stream") (ws := ws ++ c!")" :: rest) k1 (m := .kw) rfl
      (tokIs_keyword (t := .kStream) rfl rfl rfl rfl)
    refine sat_neg (by simp [h1']) ?_
    generalize nextSt .kw l1 = l2 at *
    refine Sat.bind (readMessageType_go h1 (free_cons (by decide)) k2) ?_
    rintro ⟨r, p⟩ l2 ⟨e2, k2⟩
    refine go_expect k2 .next rfl tokIs_rparen (fun l3 _ _ k3 => ?_)
    refine ⟨?_, k3⟩
    simp only at e2
    simp only [bareRPCMessage, e2, hx]

theorem rpcOptions_first {xs : List OptionStmt} {ts : List Tok} (h : RPCOptions G xs ts) :
    ts = [] ∨ ∃ w ws, words ts = w :: ws ∧ (Lead w ∨ w = c!";") := by
  cases h with
  | nil => exact .inl rfl
  | option x ts xs ts' h _ =>
    obtain ⟨ws, e⟩ := optionToks_first h
    exact .inr ⟨_, ws ++ words ts', by rw [words_append, e]; rfl, .inl (.inl word_option)⟩
  | empty t xs ts h _ => exact .inr ⟨_, words ts, by rw [words_cons, h], .inr rfl⟩

theorem rpcOptionsLoop_go (hG : G.permissive = cfg.permissive) (hl : G.loose = false) (n : Nat) :
    ∀ {l : Lexer} {acc xs : List OptionStmt} {ts : List Tok}, RPCOptions G xs ts →
      Ahead T l (words ts ++ c!"}" :: rest) → ts.length < n →
    Sat H (fun (r : List OptionStmt) l' => r.map bareOption = acc.map bareOption ++ xs.map bareOption ∧ Ahead T l' rest) E
      (rpcOptionsLoop cfg n acc l) := by
  induction n with
  | zero => intro _ _ _ _ _ _ h; omega
  | succ n ih =>
    intro l acc xs ts hs h hn
    unfold rpcOptionsLoop
    -- one round of the loop, after the statement
    have tail : ∀ {opts xs' : List OptionStmt} {ts' : List Tok} {l : Lexer}, RPCOptions G xs' ts' →
        Ahead T l (words ts' ++ c!"}" :: rest) → ts'.length < n ∨ ts' = [] →
        opts.map bareOption ++ xs'.map bareOption = xs.map bareOption →
        Sat H (fun (r : List OptionStmt) l' => r.map bareOption = acc.map bareOption ++ xs.map bareOption ∧ Ahead T l' rest) E
          ((do
            next
            let t ← tok
            if t = Token.rightCurly then
              return acc ++ opts
            else
              unNext
              rpcOptionsLoop cfg n (acc ++ opts)) l) := by
      intro opts xs' ts' l hs h hn e
      refine sat_next h.good ?_
      rw [sat_tok]
      rcases rpcOptions_first hs with rfl | ⟨w, ws, ew, hw⟩
      · obtain ⟨h1, _, h3⟩ := h.next (m := {}) rfl tokIs_rcurly
        refine sat_pos h1 ?_
        have : xs' = [] := by
          generalize hq : ([] : List Tok) = q at hs
          cases hs with
          | nil => rfl
          | option x ts _ _ h _ =>
            obtain ⟨ws, e⟩ := optionToks_first h
            simp at hq
            simp [hq.1, words] at e
          | empty => simp at hq
        subst this
        refine ⟨?_, h3⟩
        rw [List.map_append, ← e]; simp
      · have hne : (nextSt {} l).token ≠ .rightCurly := by
          rw [ew] at h
          refine h.ne_punct rfl rfl (bad := ['}']) ?_ (by simp)
          rcases hw with hw | rfl
          · exact hw.free.mono (by decide)
          · exact free_cons (by decide)
        refine sat_neg hne ?_
        refine sat_unNext ?_
        have hn' : ts'.length < n := by
          rcases hn with hn | rfl
          · exact hn
          · simp [words] at ew
        refine (ih hs (h.putBack {}) hn').mono ?_ (fun _ _ h => h)
        rintro r l' ⟨h1, h2⟩
        refine ⟨?_, h2⟩
        rw [h1, List.map_append, ← e]; simp
    unfold rpcOptionsStmt
    cases hs with
    | nil =>
      refine Sat.bind (Q := fun r l' => r = [] ∧ Ahead T l' (c!"}" :: rest)) ?_ ?_
      · refine sat_peekKeyword h.good ?_
        have h1 := (h.next (m := .kw) rfl tokIs_rcurly).1
        refine sat_neg (by simp [h1]) ?_
        refine sat_pos h1 ?_
        exact ⟨rfl, h.putBack _⟩
      · rintro r l1 ⟨rfl, k1⟩
        exact tail .nil k1 (.inr rfl) rfl
    | option x ts xs ts' hx hs =>
      obtain ⟨ws, e⟩ := optionToks_first hx
      rw [words_append, List.append_assoc] at h
      refine Sat.bind (Q := fun (r : List OptionStmt) l' => r.map bareOption = [bareOption x] ∧ Ahead T l' (words ts' ++ c!"}" :: rest)) ?_ ?_
      · refine sat_peekKeyword h.good ?_
        refine sat_pos (Ahead.keyword (by rw [e] at h; exact h) rfl) ?_
        refine Sat.bind (parseOption_go hG hl hx (h.putBack _)) ?_
        rintro r l1 ⟨h1, k1⟩
        exact ⟨by simp [h1], k1⟩
      · rintro r l1 ⟨h1, k1⟩
        have := toks_pos e
        exact tail hs k1 (.inl (by simp at hn; omega)) (by rw [h1]; rfl)
    | empty t xs ts ht hs =>
      have h' : Ahead T l (c!";" :: (words ts ++ c!"}" :: rest)) := by simpa [words_cons, ht] using h
      refine Sat.bind (Q := fun r l' => r = [] ∧ Ahead T l' (words ts ++ c!"}" :: rest)) ?_ ?_
      · refine sat_peekKeyword h'.good ?_
        have h1 := h'.semi_keyword
        refine sat_neg (by simp [h1]) ?_
        refine sat_neg (by simp [h1]) ?_
        have h2 := h'.putBack .kw
        obtain ⟨h3, _, h4⟩ := h2.next (m := {}) rfl tokIs_semi
        refine sat_run (m := readEmptyStatement) (a := ()) (l' := nextSt {} (putBack .kw l)) ?_ ?_
        · rw [readEmptyStatement_eq h2.good, if_pos h3]
        · exact ⟨rfl, h4⟩
      · rintro r l1 ⟨rfl, k1⟩
        exact tail hs k1 (.inl (by simp at hn; omega)) rfl

theorem parseRPC_go (hG : G.permissive = cfg.permissive) (hl : G.loose = false)
    {x : RPC} {ts : List Tok} (hx : RPCToks G x ts) (hs : Shut cfg ts rest) (h : Ahead T l (words ts ++ rest)) :
    Sat H (fun r l' => bareRPC r = bareRPC x ∧ Ahead T l' rest) E (parseRPC cfg l) := by
  obtain ⟨hn, hd, rq, rt, rs, tl, h1, h2, h3, h4, h5, rfl, _⟩ := hx
  simp only [words_append, words_cons, h1, h3, List.append_assoc] at h
  unfold parseRPC
  refine go_expect (w := c!"rpc") h (.with_ _) rfl (tokIs_keyword rfl rfl rfl rfl)
    (fun l1 _ _ k1 => ?_)
  rw [sat_position]
  refine go_expect k1 .next rfl (tokIs_ident hn) (fun l2 _ e2 k2 => ?_)
  rw [sat_txt]
  refine Sat.bind (parseRPCMessage_go h2 k2) ?_
  rintro r l3 ⟨e3, k3⟩
  refine go_expect (w := c!"returns") k3 (.with_ _) rfl (tokIs_keyword rfl rfl rfl rfl) (fun l4 _ _ k4 => ?_)
  refine Sat.bind (parseRPCMessage_go h4 k4) ?_
  rintro r' l5 ⟨e5, k5⟩
  refine sat_next k5.good ?_
  rw [sat_position]
  refine sat_run (m := findEmbeddedComments _ _) rfl ?_
  rw [sat_tok]
  rcases h5 with ⟨h5, h6⟩ | ⟨a, os, cl, h5, h6, h7, rfl⟩
  · rw [h5] at k5
    obtain ⟨t6, _, k6⟩ := k5.next (m := {}) rfl tokIs_semi
    refine sat_neg (by simp [t6]) ?_
    refine sat_pos t6 ?_
    refine ⟨?_, k6⟩
    simp only [bareRPC, e2, e3, e5, h6]
  · obtain ⟨tl, e, h8⟩ := Close.split h7
    simp only [List.cons_append, words_cons, words_append, h5, e, List.append_assoc] at k5
    obtain ⟨t6, _, _⟩ := k5.next (m := {}) rfl tokIs_lcurly
    refine sat_pos t6 ?_
    refine sat_unNext ?_
    refine Sat.bind (Q := fun (r : List OptionStmt × Option Comment) l' =>
      r.1.map bareOption = x.options.map bareOption ∧ Ahead T l' (tl ++ rest)) ?_ ?_
    · unfold parseRPCOptions
      refine go_expect (k5.putBack {}) .next rfl tokIs_lcurly (fun l7 _ _ k7 => ?_)
      refine go_inline k7 (fun c l8 k8 => ?_)
      rw [sat_bound]
      refine Sat.bind (rpcOptionsLoop_go hG hl _ h6 k8 ?_) ?_
      · have := Ahead.bound (ws := words os) k8
        simpa [words] using this
      rintro r l9 ⟨e9, k9⟩
      exact ⟨e9, k9⟩
    rintro ⟨os', c⟩ l7 ⟨e7, k7⟩
    refine Sat.bind (blockLastPos_go (by rw [← hG]; exact h8)
      (hs.close (tl := tl) (pre := words (hd ++ rq ++ rt :: rs ++ a :: os)) ?_) k7) ?_
    · simp only [words_append, words_cons, List.cons_append, e, List.append_assoc]
    intro p l8 k8
    refine ⟨?_, k8⟩
    simp only at e7
    simp only [bareRPC, e2, e3, e5, e7]

theorem rpcToks_first {x : RPC} {ts : List Tok} (h : RPCToks G x ts) : ∃ ws, words ts = c!"rpc" :: ws := by
  obtain ⟨_, hd, rq, rt, rs, tl, h, _, _, _, _, rfl, _⟩ := h
  exact ⟨_, by rw [words_append, words_append, words_append, h]; rfl⟩

theorem serviceStmt_go (hG : G.permissive = cfg.permissive) (hl : G.loose = false) (hj : G.junk = false)
    {v : Visitee} {ts : List Tok} (hx : Toks G .service v ts) (hv : bare v ≠ .nil) {cs : List Comment} {l0 : Lexer}
    (hs : Shut cfg ts rest) (h0 : Ahead T l0 (words ts ++ rest)) (h : Ahead T l (words ts ++ rest)) :
    Sat H (Stmt T v rest) E (serviceStmt cfg cs (nextSt .kw l0).token l) := by
  unfold serviceStmt
  cases hx with
  | comment => simp [bare] at hv
  | empty _ e t ht =>
    rw [show words [t] ++ rest = c!";" :: rest by simp [words, ht]] at h h0
    rw [h0.semi_keyword]
    refine sat_neg (by simp) (sat_neg (by simp) ?_)
    obtain ⟨h1, _, h3⟩ := h.next (m := {}) rfl tokIs_semi
    refine sat_run (m := readEmptyStatement) (a := ()) (l' := nextSt {} l) ?_ ?_
    · rw [readEmptyStatement_eq h.good, if_pos h1]
    · exact ⟨rfl, h3⟩
  | junk _ _ _ _ hjj => rw [hj] at hjj; simp at hjj
  | option k x ts _ hx =>
    obtain ⟨ws, e⟩ := optionToks_first hx
    refine sat_pos (Ahead.keyword (by rw [e] at h0; exact h0) rfl) ?_
    refine Sat.bind (parseOption_go hG hl hx h) ?_
    rintro r l1 ⟨h1, k1⟩
    exact ⟨by simp only [bare]; exact congrArg _ h1, k1⟩
  | message _ _ _ _ _ hk => simp at hk
  | enum _ _ _ _ _ hk => simp at hk
  | extend _ _ _ _ _ _ hk => simp at hk
  | field _ _ _ hk => simp at hk
  | reserved _ _ _ hk => simp at hk
  | rpc x ts hx =>
    obtain ⟨ws, e⟩ := rpcToks_first hx
    have h1 := Ahead.keyword (t := .kRpc) (by rw [e] at h0; exact h0) rfl
    refine sat_neg (by simp [h1]) ?_
    refine sat_pos h1 ?_
    refine Sat.bind (parseRPC_go hG hl hx hs h) ?_
    rintro r l1 ⟨h1, k1⟩
    exact ⟨by simp only [bare]; exact congrArg _ h1, k1⟩

theorem free_rcurly {ws : List Str} : Free [';'] (c!"}" :: ws) := free_cons (by decide)

theorem serviceLoop_go (hG : G.permissive = cfg.permissive) (hl : G.loose = false) (hj : G.junk = false)
    {tl : List Str} {il : Option Comment} (hc : tl = [] ∨ (cfg.permissive = true ∧ tl = [c!";"]))
    (hf : cfg.permissive = true → tl = [] → Free [';'] rest) (n : Nat) :
    ∀ {l : Lexer} {acc vs : List Visitee} {ts : List Tok}, Spec.Body G .service vs ts →
      Ahead T l (words ts ++ c!"}" :: (tl ++ rest)) → ts.length < n →
    Sat H (Loop T acc vs rest) E (serviceLoop cfg il n acc l) := by
  induction n with
  | zero => intro _ _ _ _ _ _ h; omega
  | succ n ih =>
    intro l acc vs ts hb h hn
    unfold serviceLoop
    refine go_comments h (fun cs l1 h => ?_)
    refine sat_peekKeyword h.good ?_
    rcases body_uncons hb (body_noNil hb (by simp)) with ⟨rfl, e⟩ |
      ⟨v, ts1, vs', ts2, g1, g2, g3, rfl, e, _, _, _, g9⟩
    · refine sat_pos (h.next rfl tokIs_rcurly).1 ?_
      refine (closeBody_go hc hf (h.putBack _)).mono ?_ (fun _ _ h => h)
      rintro r l' ⟨h1, h2⟩
      exact ⟨by rw [h1, e, List.append_nil], h2⟩
    · obtain ⟨w, ws, ew, hw⟩ := toks_first hj g1 g2
      refine sat_neg (Ahead.not_rcurly (w := w) (ws := ws ++ (words ts2 ++ c!"}" :: (tl ++ rest))) hw
        (by rw [words_append, ew] at h; simpa using h)) ?_
      rw [words_append, List.append_assoc] at h
      refine Sat.bind (serviceStmt_go hG hl hj g1 g2
        (shut_of_tight hG hj g3 (body_noNil g3 (by simp)) g9 free_rcurly) h (h.putBack _)) ?_
      rintro r l2 ⟨h1, k2⟩
      refine maybeScan_go (by rw [h1]; exact g2) k2 (fun r' l3 h3 k3 => ?_)
      have := toks_pos ew
      exact loop_step e g2 (h3.trans h1) (ih g3 k3 (by simp at hn; omega))

theorem parseService_go (hG : G.permissive = cfg.permissive) (hl : G.loose = false) (hj : G.junk = false)
    {x : Service} {hd bs cl : List Tok} (h1 : words hd = [c!"service", x.serviceName, c!"{"]) (hn : Word x.serviceName)
    (hb : Spec.Body G .service x.serviceBody bs) (hc : Close G cl) (hs : Shut cfg (hd ++ bs ++ cl) rest)
    (h : Ahead T l (words (hd ++ bs ++ cl) ++ rest)) :
    Sat H (fun r l' => (r.serviceName = x.serviceName ∧ bareAll r.serviceBody = bareAll x.serviceBody) ∧
      Ahead T l' rest) E (parseService cfg l) := by
  obtain ⟨tl, e, h4⟩ := Close.split hc
  rw [words_append, words_append, h1, e] at h
  unfold parseService
  refine go_expect (w := c!"service") (by simpa using h) (.with_ _) rfl (tokIs_keyword rfl rfl rfl rfl)
    (fun l1 _ _ k1 => ?_)
  rw [sat_position]
  refine go_expect k1 .next rfl (tokIs_ident hn) (fun l2 _ e2 k2 => ?_)
  rw [sat_txt]
  refine Sat.bind (Q := Loop T [] x.serviceBody rest) ?_ ?_
  · unfold parseServiceBody
    refine go_expect k2 .next rfl tokIs_lcurly (fun l3 _ _ k3 => ?_)
    refine go_inline k3 (fun c l4 k4 => ?_)
    rw [sat_bound]
    refine serviceLoop_go hG hl hj (by rw [← hG]; exact h4) (hs.close (by simp only [words_append, e]; rfl)) _ hb k4 ?_
    have := Ahead.bound (ws := words bs) k4
    simpa [words] using this
  rintro ⟨b, c, p⟩ l3 ⟨e3, k3⟩
  rw [bareAll, List.nil_append] at e3
  exact ⟨⟨e2, e3⟩, k3⟩

/-! ## package.go, import.go, syntax.go, edition.go -/

theorem parsePackage_go {x : Package} {ts : List Tok} (hx : PackageToks x ts) (h : Ahead T l (words ts ++ rest)) :
    Sat H (fun r l' => barePackage r = barePackage x ∧ Ahead T l' rest) E (parsePackage l) := by
  obtain ⟨ws, h1, h2, _⟩ := hx
  rw [h2] at h
  unfold parsePackage
  refine go_expect (w := c!"package") (ws := ws ++ c!";" :: rest) (by simpa using h) (.with_ _) rfl
    (tokIs_keyword rfl rfl rfl rfl) (fun l1 _ _ k1 => ?_)
  rw [sat_position]
  refine Sat.bind (orUnexpected_go (readFullIdent_go h1 (free_cons (by decide)) k1)) ?_
  rintro ⟨r, p⟩ l2 ⟨e2, k2⟩
  refine go_expect k2 .next rfl tokIs_semi (fun l3 _ _ k3 => ?_)
  refine ⟨?_, k3⟩
  simp only at e2
  simp only [barePackage, e2]

theorem parseImport_go (hl : G.loose = false) {x : Import} {ts : List Tok} (hx : ImportToks G x ts)
    (h : Ahead T l (words ts ++ rest)) :
    Sat H (fun r l' => bareImport r = bareImport x ∧ Ahead T l' rest) E (parseImport l) := by
  obtain ⟨h1, ms, h2, h3, _⟩ := hx
  rw [h3] at h
  unfold parseImport
  refine go_expect (w := c!"import") (ws := ms ++ x.location :: c!";" :: rest) (by simpa using h) (.with_ _) rfl
    (tokIs_keyword rfl rfl rfl rfl) (fun l1 _ _ k1 => ?_)
  rw [sat_position]
  refine Sat.bind (Q := fun r l' => r = x.modifier ∧ Ahead T l' (x.location :: c!";" :: rest)) ?_ ?_
  · unfold parseImportModifier
    refine sat_nextWith k1.good ?_
    rw [sat_tok]
    generalize x.modifier = m at h2 ⊢
    cases h2 with
    | none =>
      obtain ⟨t2, _, _⟩ := k1.next (m := .keywordOrStr) rfl (tokIs_str rfl h1)
      refine sat_neg (by simp [t2]) (sat_neg (by simp [t2]) (sat_pos t2 ?_))
      refine sat_unNext ?_
      exact ⟨rfl, k1.putBackTok rfl (tokIs_str rfl h1)⟩
    | «public» =>
      obtain ⟨t2, _, k2⟩ := k1.next (m := .keywordOrStr) rfl (tokIs_keyword (t := .kPublic) rfl rfl rfl rfl)
      refine sat_pos t2 ?_
      exact ⟨rfl, k2⟩
    | weak =>
      obtain ⟨t2, _, k2⟩ := k1.next (m := .keywordOrStr) rfl (tokIs_keyword (t := .kWeak) rfl rfl rfl rfl)
      refine sat_neg (by simp [t2]) (sat_pos t2 ?_)
      exact ⟨rfl, k2⟩
    | junk w hw => rw [hl] at hw; simp at hw
  rintro r l2 ⟨rfl, k2⟩
  refine go_expect k2 (.with_ _) rfl (tokIs_str rfl h1) (fun l3 _ e3 k3 => ?_)
  rw [sat_txt]
  refine go_expect k3 .next rfl tokIs_semi (fun l4 _ _ k4 => ?_)
  refine ⟨?_, k4⟩
  simp only [bareImport, e3]

theorem word_proto2 : Word c!"proto2" := .mk 'p' _ (by unfold WordStart; decide) (by unfold WordChar; decide)
theorem word_proto3 : Word c!"proto3" := .mk 'p' _ (by unfold WordStart; decide) (by unfold WordChar; decide)

theorem parseSyntax_go {x : Syntax} {ts : List Tok} (hx : SyntaxToks x ts) (h : Ahead T l (words ts ++ rest)) :
    Sat H (fun r l' => (∃ s, r = some s ∧ bareSyntax s = bareSyntax x) ∧ Ahead T l' rest) E (parseSyntax l) := by
  obtain ⟨hv, lq, tq, h1, h2, h3, h4, _⟩ := hx
  rw [h4] at h
  unfold parseSyntax
  refine sat_nextWith h.good ?_
  rw [sat_tok]
  obtain ⟨t1, _, k1⟩ := Ahead.next (w := c!"syntax") (ws := c!"=" :: lq :: x.protobufVersion :: tq :: c!";" :: rest)
    (by simpa using h) (m := .kw) rfl (tokIs_keyword (t := .kSyntax) rfl rfl rfl rfl)
  refine sat_neg (by simp [t1]) ?_
  generalize nextSt .kw l = l1 at *
  rw [sat_position]
  refine go_expect k1 .next rfl tokIs_equals (fun l2 _ _ k2 => ?_)
  refine go_expect k2 .next rfl (tokIs_quote h1 rfl) (fun l3 _ e3 k3 => ?_)
  rw [sat_txt]
  refine sat_next k3.good ?_
  have hw : Word x.protobufVersion := by
    rcases hv with hv | hv <;> rw [hv]
    · exact word_proto2
    · exact word_proto3
  obtain ⟨_, e4, k4⟩ := k3.next (m := {}) rfl (tokIs_ident hw)
  rw [sat_txt, e4]
  generalize nextSt {} l3 = l4 at *
  refine sat_neg (by rcases hv with hv | hv <;> rw [hv] <;> decide) ?_
  refine go_expect k4 .next rfl (tokIs_quote h2 rfl) (fun l5 _ e5 k5 => ?_)
  rw [sat_txt]
  refine go_expect k5 .next rfl tokIs_semi (fun l6 _ _ k6 => ?_)
  refine ⟨⟨_, rfl, ?_⟩, k6⟩
  simp only [bareSyntax, e3, e5, h3]

theorem parseEdition_go {x : Edition} {ts : List Tok} (hx : EditionToks x ts) (h : Ahead T l (words ts ++ rest)) :
    Sat H (fun r l' => (∃ s, r = some s ∧ bareEdition s = bareEdition x) ∧ Ahead T l' rest) E (parseEdition l) := by
  obtain ⟨hv, lq, tq, h1, h2, h3, h4, _⟩ := hx
  rw [h4] at h
  unfold parseEdition
  refine sat_nextWith h.good ?_
  rw [sat_tok]
  obtain ⟨t1, _, k1⟩ := Ahead.next (w := c!"edition") (ws := c!"=" :: lq :: x.edition :: tq :: c!";" :: rest)
    (by simpa using h) (m := .kw) rfl (tokIs_keyword (t := .kEdition) rfl rfl rfl rfl)
  refine sat_neg (by simp [t1]) ?_
  generalize nextSt .kw l = l1 at *
  rw [sat_position]
  refine go_expect k1 .next rfl tokIs_equals (fun l2 _ _ k2 => ?_)
  refine go_expect k2 .next rfl (tokIs_quote h1 rfl) (fun l3 _ e3 k3 => ?_)
  rw [sat_txt]
  refine go_expect k3 (.with_ _) rfl (tokIs_int rfl hv) (fun l4 _ e4 k4 => ?_)
  rw [sat_txt]
  refine go_expect k4 .next rfl (tokIs_quote h2 rfl) (fun l5 _ e5 k5 => ?_)
  rw [sat_txt]
  refine go_expect k5 .next rfl tokIs_semi (fun l6 _ _ k6 => ?_)
  refine ⟨⟨_, rfl, ?_⟩, k6⟩
  simp only [bareEdition, e3, e4, e5, h3]

end

end Parser

end Verif
