import Verif.Proofs.ViableBody

/-!
# Where errors are reported: messages and files

The text contains no `group` or the run is calm: after a failed group the recovery may put back more than one
token.
-/

set_option backward.isDefEq.respectTransparency false
set_option backward.dsimp.instances true

namespace Verif
open Spec Scanner Lexer
open M (bind_ok run_get)

variable {sm : Bool}

namespace Parser

theorem opens_message {G : Gram} {k : Ctx} (hk : k = .file ∨ k = .message) {nm : Str} {ws : List Str} (h1 : Word nm)
    (h2 : BodyV G .message ws) {vs rest : List Str} (h : [c!"message", nm, c!"{"] ++ ws = vs ++ rest) : StmtV G k vs :=
  word_opens h2 (fun hd bs cl vs e1 e2 e3 info e4 =>
    ⟨_, .message k ⟨nm, vs, [], none, none, info⟩ hd bs cl hk e1 h1 e2 (.inl e3) e4⟩) h

/-- A brace and the beginning of a body. -/
def BlockV (G : Gram) (ws : List Str) : Prop := ∃ more vs, [c!"{"] ++ vs = ws ++ more ∧ BodyV G .message vs

/-- The text contains no `group`, or the run is calm. -/
def Small (calm : Bool) (l : Lexer) : Prop := NoGroup l.scanner.inp ∨ calm = true

theorem Small.took {calm : Bool} {l l1 : Lexer} {ts : List Tok} (h : Small calm l) (ht : Took l ts l1) :
    Small calm l1 := h.imp (fun h => h.suffix ht.suffix) id

/-- What is asked of the parser for nested bodies. -/
def BodyVia (calm : Bool) (cfg : Cfg) (body : P Parser.Body) : Prop :=
  ∀ {l : Lexer}, Good l → Small calm l →
    Sat (fun _ => True) (fun _ _ => True) (FailV (!cfg.permissive) (Tardy (BlockV cfg.gram)) l) (body l)

theorem attempt_any {α : Type} {m : P α} {l : Lexer} {E : Err → Lexer → Prop} :
    Sat (fun _ => True) (fun _ _ => True) E (M.attempt m l) := by
  unfold M.attempt
  cases m l <;> trivial

section
variable {cfg : Cfg} {d : Nat} {body : P Parser.Body} {calm : Bool}

theorem parseMessageWith_via (hb : BodyVia calm cfg body) {k : Ctx} (hk : k = .file ∨ k = .message)
    {l : Lexer} (hg : Good l) (hd : Small calm l) :
    Sat (fun _ => True) (fun _ _ => True) (FailV (!cfg.permissive) (Tardy (StmtV cfg.gram k)) l) (parseMessageWith body l) := by
  unfold parseMessageWith
  refine expect_via (.with_ .kw) rfl (by simp) (by simp) (Took.refl hg) (?_) (fun x1 l1 g1 ht => ?_)
  · exact .inl (opens_message hk word_a bodyV_nil (by simp; rfl))
  rw [sat_position]
  refine expect_via .next rfl (by simp) (by simp) ht (?_) (fun x2 l2 g2 ht => ?_)
  · exact .inl (opens_message hk word_a bodyV_nil (by simp [g1.kw rfl]; rfl))
  have hw : Word x2.text := g2.reads.1
  rw [sat_txt]
  refine Sat.lastVia ht (hb ht.good (hd.took ht)) ?_ (fun _ _ => trivial)
  intro ws h
  refine h.map ?_
  rintro ws ⟨more, vs, h1, h2⟩
  refine opens_message hk hw h2 (rest := more) ?_
  simp only [List.cons_append, List.nil_append] at h1
  simp [g1.kw rfl, h1]

theorem fieldStmt_via {cs : List Comment} {l : Lexer} (hg : Good l)
    (hk : (nextSt .kw l).token ∉ [Token.kEnum, .kMessage, .kOption, .kOneof, .kMap, .kExtend, .kReserved, .kExtensions])
    (hd : Small calm l) :
    Sat (fun _ => True) (fun _ _ => True) (FailV (!cfg.permissive) (Tardy (StmtV cfg.gram .message)) l) (fieldStmtK calm cfg body cs l) := by
  unfold fieldStmtK
  refine Sat.bind (peekIsGroup_sat hg) ?_
  rintro b l1 ⟨hbk, hgr⟩
  have ht := hbk.took hg
  refine sat_ite (fun h => ?_) (fun h => ?_)
  · refine Sat.bind attempt_any (fun r l2 _ => ?_)
    cases r with
    | ok x => trivial
    | error e =>
      have : calm = true := hd.resolve_left (groupAhead_infix (hgr.1 h))
      subst this
      trivial
  refine Sat.tailVia (B1 := Tardy (StmtV cfg.gram .message)) ht ?_ (fun _ _ h => h)
  refine attempt_via (parseField_cut ht.good).taken ?_ (fun _ => rfl) (fun _ _ => trivial)
  rintro ws ⟨⟨us, more, k1, k2, y, k3⟩, ts, l2, rfl, h4⟩
  cases ts with
  | nil => exact .inl ⟨.comment ⟨[], ⟨{}, {}⟩⟩, [], [], .comment _ _, rfl⟩
  | cons u ts =>
    refine .inl ⟨_, us, more, .field _ y _ (.inl rfl) k3 ?_, k1⟩
    rintro - t hm hw
    cases us with
    | nil => simp at hm
    | cons t' us =>
      simp only [List.head?_cons, Option.mem_def, Option.some.injEq] at hm
      subst hm
      simp only [words_cons, List.cons_append, List.cons.injEq] at k1
      rw [k1.1] at hw
      obtain ⟨_, e1, e2⟩ := messageWords_token hw
      have := (took_word (m := .kw) h4 (messageWords_word _ hw) rfl).1
      rw [hbk.token, e1] at this
      rw [this] at hk
      exact hk e2

theorem stmt_via {α β : Type} {R : α → List Tok → Prop} {k : Ctx} {l : Lexer} {Q : α → Lexer → Prop} {m : P α}
    {f : α → P β} (hg : Good l) (h : Sat (fun _ => True) Q (FailV sm (Opens R) l) (m l)) {G : Gram}
    (hR : ∀ x ts, R x ts → ∃ v, Toks G k v ts) (hf : ∀ a l', Sat (fun _ => True) (fun _ _ => True) (FailV sm (Tardy (StmtV G k)) l) (f a l')) :
    Sat (fun _ => True) (fun _ _ => True) (FailV sm (Tardy (StmtV G k)) l) ((m >>= f) l) := by
  refine Sat.lastVia (Took.refl hg) h ?_ hf
  rintro ws ⟨x, ts, more, h1, h2⟩
  obtain ⟨v, hv⟩ := hR x ts h1
  exact .inl ⟨v, ts, more, hv, by simpa using h2⟩

theorem messageStmt_via (hb : BodyVia calm cfg body) {cs : List Comment} {t : Token} {l : Lexer} (hg : Good l)
    (hk : t = (nextSt .kw l).token) (hd : Small calm l) :
    Sat (fun _ => True) (fun _ _ => True) (FailV (!cfg.permissive) (Tardy (StmtV cfg.gram .message)) l)
      (messageStmtK calm cfg body cs t l) := by
  unfold messageStmtK
  have ht := Took.refl hg
  split
  · exact Sat.lastVia ht (parseEnum_via (.inr rfl) hg) (fun _ h => h) (fun _ _ => trivial)
  · exact Sat.lastVia ht (parseMessageWith_via hb (.inr rfl) hg hd) (fun _ h => h) (fun _ _ => trivial)
  · exact stmt_via hg (parseOption_via hg) (fun x ts h => ⟨_, .option _ x _ (by simp) h⟩) (fun _ _ => trivial)
  · exact stmt_via hg (parseOneof_via hg) (fun x ts h => ⟨_, .oneof x _ h⟩) (fun _ _ => trivial)
  · exact stmt_via hg (parseMapField_via hg) (fun x ts h => ⟨_, .mapField x _ h⟩) (fun _ _ => trivial)
  · exact Sat.lastVia ht (parseExtend_via (.inr rfl) hg) (fun _ h => h) (fun _ _ => trivial)
  · exact stmt_via hg (parseReserved_via (G := cfg.gram) rfl hg) (fun x ts h => ⟨_, .reserved _ x _ (by simp) h⟩)
      (fun _ _ => trivial)
  · refine Sat.lastVia ht (parseExtensions_via hg) (fun ws h => ?_) (fun _ _ => trivial)
    refine h.map ?_
    rintro ws ⟨x, ts, more, h1, h2⟩
    exact ⟨_, ts, more, .extensions x _ h1, by simpa using h2⟩
  · refine fieldStmt_via hg ?_ hd
    rw [← hk]
    simp only [List.mem_cons, List.not_mem_nil, or_false, not_or]
    refine ⟨?_, ?_, ?_, ?_, ?_, ?_, ?_, ?_⟩ <;> (intro h; simp_all)

theorem messageLoop_via (hb : BodyVia calm cfg body) (hb' : BodyOK calm (fun _ => True) cfg d body) {il : Option Comment} (n : Nat) :
    ∀ {l : Lexer} {vs : List Visitee}, Good l → Small calm l →
    Sat (fun _ => True) (fun _ _ => True) (FailV (!cfg.permissive) (Tardy (BodyV cfg.gram .message)) l)
      (messageLoopK calm cfg body il n vs l) := by
  induction n with
  | zero => intro _ _ _ _; trivial
  | succ n ih =>
    intro l vs hg hd
    unfold messageLoopK
    refine stepI_comments (TookI.refl hg) (fun cs l1 ht hnc => ?_)
    simp only [List.nil_append] at ht
    refine sat_peekKeyword ht.good ?_
    have hbk := back_putBack ht.good .kw
    have hnc := hnc.back hbk
    have ht := ht.back hbk
    refine sat_ite (fun h => ?_) (fun h => ?_)
    · exact (closeBody_sat ht.good (by rw [hbk.token]; exact h) hnc).mono (fun _ _ _ => trivial) (fun _ _ h => h)
    · have hk := hbk.token .kw
      generalize putBack .kw l1 = l1' at ht hk hnc
      have htk : Took l [] l1' := by simpa using ht.took
      have hd1 := hd.took htk
      refine Sat.via htk ((messageStmt_sat hb' ht.good hk.symm (.inl trivial)).and' (messageStmt_via hb ht.good hk.symm hd1))
        (fun ws _ hw => by simpa using hw.mono (fun _ => bodyV_stmt rfl)) ?_
      rintro v l2 ⟨hg2, h2, h3, h0, h0', ts, h1, h4⟩
      have hne := toks_ne h1 h2 h3
      refine Sat.bind (maybeScan_sat hg2 h2 h3) ?_
      rintro v' l3 ⟨o, rfl, ho⟩
      have h9 : Took l ts l3 := by
        simpa using htk.trans ((h4 (.inl hd1)).took.nil_trans ho.nil)
      exact Sat.tailVia h9 (ih h9.good (hd.took h9)) (fun ws _ hw => hw.map (fun _ => bodyV_cons rfl h1))

theorem messageBodyWith_via (hb : BodyVia calm cfg body) (hb' : BodyOK calm (fun _ => True) cfg d body) :
    BodyVia calm cfg (messageBodyWithK calm cfg body) := by
  intro l hg hd
  unfold messageBodyWithK
  refine expect_via .next rfl (by simp) (by simp) (Took.refl hg) (.inl ⟨_, [], rfl, bodyV_nil⟩) (fun x1 l1 g1 ht => ?_)
  refine Sat.bind (parseInline_sat ht.good) (fun c l2 hi => ?_)
  have ht2 := ht.nil_trans hi.nil
  refine sat_next ht2.good ?_
  rw [sat_tok]
  refine sat_ite (fun h => ?_) (fun h => ?_)
  · have g := got_next (m := {}) rfl h (by simp) (by simp)
    have ht3 := next_took ht2.good (m := {}) rfl (by rw [h]; simp)
    exact Sat.bind (blockLastPos_sat (cfg := cfg) ht3.good (g.punct rfl) rfl
      (got_line rfl (by simp) (by simp) g (g.punct rfl) (by decide))) (fun _ _ _ => trivial)
  · refine sat_unNext ?_
    have hbk := back_putBack ht2.good {}
    have ht3 := ht2.nil_trans (hbk.took ht2.good)
    refine Sat.tailVia ht3 (messageLoop_via hb hb' _ ht3.good (hd.took ht3)) (fun ws _ hw => hw.map (fun ws hb => ?_))
    · exact ⟨[], ws, by simp [g1.punct rfl], hb⟩

theorem messageBody_via (d : Nat) : BodyVia calm cfg (messageBodyK calm cfg d) := by
  induction d with
  | zero => intro l hg hd; trivial
  | succ d ih =>
    exact messageBodyWith_via (d := d) ih (messageBody_sat (H := fun _ => True) d)

/-! ## Files -/

theorem protoStmt_via {cs : List Comment} {t : Token} {l : Lexer} (hg : Good l)
    (hd : Small calm l) :
    Sat (fun _ => True) (fun _ _ => True) (FailV (!cfg.permissive) (Tardy (StmtV cfg.gram .file)) l) (protoStmtK calm cfg cs t l) := by
  unfold protoStmtK
  have ht := Took.refl hg
  split
  · exact stmt_via hg (parseImport_via (G := cfg.gram) rfl hg) (fun x ts h => ⟨_, .importStmt x _ h⟩) (fun _ _ => trivial)
  · exact stmt_via hg (parsePackage_via hg) (fun x ts h => ⟨_, .package x _ h⟩) (fun _ _ => trivial)
  · exact stmt_via hg (parseOption_via hg) (fun x ts h => ⟨_, .option _ x _ (by simp) h⟩) (fun _ _ => trivial)
  · exact Sat.lastVia ht (parseMessageWith_via (messageBody_via _) (.inl rfl) hg hd) (fun _ h => h)
      (fun _ _ => trivial)
  · exact Sat.lastVia ht (parseEnum_via (.inl rfl) hg) (fun _ h => h) (fun _ _ => trivial)
  · exact Sat.lastVia ht (parseService_via hg) (fun _ h => h) (fun _ _ => trivial)
  · exact Sat.lastVia ht (parseExtend_via (.inl rfl) hg) (fun _ h => h) (fun _ _ => trivial)
  · refine Sat.lastVia ht (readEmptyStatement_via hg) ?_ (fun _ _ => trivial)
    rintro _ rfl
    exact .inl ⟨.comment ⟨[], ⟨{}, {}⟩⟩, [], [], .comment _ _, rfl⟩

end

theorem protoLoop_via {cfg : Cfg} {calm : Bool} (n : Nat) :
    ∀ {l : Lexer} {vs : List Visitee}, Good l →
    Small calm l →
    Sat (fun _ => True) (fun _ _ => True) (FailV (!cfg.permissive) (Tardy (BodyV cfg.gram .file)) l)
      (protoLoopK calm cfg n vs l) := by
  induction n with
  | zero => intro _ _ _ _; trivial
  | succ n ih =>
    intro l vs hg hn
    unfold protoLoopK
    refine stepI_comments (TookI.refl hg) (fun cs l1 ht hnc => ?_)
    simp only [List.nil_append] at ht
    refine sat_isEOF ht.good ?_
    have hbk := back_putBack ht.good {}
    have hnc := hnc.back hbk
    have ht := ht.back hbk
    refine sat_ite (fun h => trivial) (fun h => ?_)
    generalize putBack {} l1 = l1' at ht hnc
    refine sat_peekKeyword ht.good ?_
    have hbk := back_putBack ht.good .kw
    have hnc := hnc.back hbk
    have ht := ht.back hbk
    generalize (nextSt Mode.kw l1').token = t
    generalize putBack .kw l1' = l2 at ht hnc
    have htk : Took l [] l2 := by simpa using ht.took
    have hd : Small calm l2 := hn.took htk
    refine Sat.via htk ((protoStmt_sat (calm := calm) (cs := cs) ht.good (.inl trivial)).and' (protoStmt_via ht.good hd))
      (fun ws _ hw => by simpa using hw.mono (fun _ => bodyV_stmt rfl)) ?_
    rintro ⟨now, v⟩ l3 ⟨hg3, ⟨hnow, h2, h3, h0, h0', ts, h1, h4⟩ | ⟨hr, x, h1, h2, h3, h3'⟩⟩
    · simp only at hnow
      subst hnow
      have hne := toks_ne h1 h2 h3
      refine Sat.bind (maybeScan_sat hg3 h2 h3) ?_
      rintro v' l4 ⟨o, rfl, ho⟩
      have h9 : Took l ts l4 := by
        simpa using htk.trans ((h4 (.inl hd)).took.nil_trans ho.nil)
      exact Sat.tailVia h9 (ih h9.good (hn.took h9))
        (fun ws _ hw => hw.map (fun _ => bodyV_cons rfl h1))
    · simp only [Prod.mk.injEq] at hr
      obtain ⟨rfl, rfl⟩ := hr
      have ht3 := htk.trans h2
      simp only [List.nil_append] at ht3
      unfold maybeScanInlineComment
      refine Sat.bind (Q := fun v l4 => v = .nil ∧ Inline l3 none l4) (Sat.bind (parseInline_sat h2.good) ?_) ?_
      · intro c l4 hi
        cases c with
        | none => exact ⟨rfl, hi⟩
        | some c => trivial
      rintro v l4 ⟨rfl, hi⟩
      have ht4 := ht3.nil_trans hi.nil
      exact Sat.tailVia ht4 (ih ht4.good (hn.took ht4))
        (fun ws _ hw => hw.map (fun _ => bodyV_cons rfl (.empty _ {} _ h1)))

/-- The beginnings of files. -/
def ProtoV (G : Gram) (ws : List Str) : Prop := ∃ q ts more, ProtoToks G q ts ∧ words ts = ws ++ more

theorem parseProto_via {cfg : Cfg} {calm : Bool} {l : Lexer} (hg : Good l)
    (hd : Small calm l) :
    Sat (fun _ => True) (fun _ _ => True) (FailV (!cfg.permissive) (Tardy (ProtoV cfg.gram)) l) (parseProtoK calm cfg l) := by
  unfold parseProtoK
  refine Sat.bind (parseBOM_sat hg) ?_
  rintro - l1 ⟨bom, h1, ht⟩
  have h1' : toks bom = [] ∨ words (toks bom) = [[Char.ofNat 0xFEFF]] := by
    rcases h1 with rfl | ⟨lost, t, rfl, h⟩
    · exact .inl rfl
    · exact .inr (by simp [toks_append, h])
  refine stepI_comments ht (fun cs l2 ht2 hnc => ?_)
  refine Sat.via (B1 := Opens SyntaxToks) ht2.took ((syntaxPart_sat (sm := !cfg.permissive) ht2.good).and' (Q2 := fun _ _ => True) ?_) ?_ ?_
  · unfold syntaxPart
    refine Sat.via (Took.refl ht2.good) (((parseSyntax_sat (sm := !cfg.permissive) ht2.good)).and' (parseSyntax_via ht2.good)) (fun _ _ h => h) ?_
    rintro r l1 ⟨ts, h1, h2⟩
    cases h1 with
    | none => trivial
    | some a ts h => exact Sat.bind (parseInline_sat h2.good) (fun _ _ _ => trivial)
  · rintro ws _ ⟨x, ts, more, k1, k2⟩
    exact .inl ⟨_, _, more, .mk ⟨some x, none, [], []⟩ _ _ _ _ h1' (.some x ts k1) .none (.nil _), by simp [k2, toks_append]⟩
  rintro s l3 ⟨c3, ss, h2, ht3, _, h2'⟩
  have ht := ht2.trans ht3
  refine Sat.via (B1 := Opens EditionToks) ht.took ((editionPart_sat (sm := !cfg.permissive) ht.good).and' (Q2 := fun _ _ => True) ?_) ?_ ?_
  · unfold editionPart
    refine Sat.via (Took.refl ht.good) (((parseEdition_sat (sm := !cfg.permissive) ht.good)).and' (parseEdition_via ht.good)) (fun _ _ h => h) ?_
    rintro r l1 ⟨ts, h1, h2⟩
    cases h1 with
    | none => trivial
    | some a ts h => exact Sat.bind (parseInline_sat h2.good) (fun _ _ _ => trivial)
  · rintro ws _ ⟨x, ts, more, k1, k2⟩
    exact .inl ⟨_, _, more, .mk ⟨s, some x, [], []⟩ _ _ _ _ h1' h2 (.some x ts k1) (.nil _), by simp [k2, toks_append]⟩
  rintro e l4 ⟨c4, es, h3, ht4, _, h3'⟩
  have ht := ht.trans ht4
  have htk : Took l (toks bom ++ toks ss ++ toks es) l4 := by simpa [toks_append] using ht.took
  unfold parseProtoBodyK
  refine Sat.lastVia htk (protoLoop_via _ ht.good (hd.took htk)) ?_ (fun _ _ => trivial)
  intro ws hw
  refine hw.map ?_
  rintro ws ⟨vs, us, more, k1, k2⟩
  exact ⟨_, _, more, .mk ⟨s, e, vs, []⟩ _ _ _ _ h1' h2 h3 k1, by simp [k2]⟩

end Parser
end Verif
