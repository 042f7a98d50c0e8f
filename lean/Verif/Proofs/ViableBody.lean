import Verif.Proofs.ViableReserved

/-!
# Where errors are reported: enums, extends, services
-/

set_option backward.isDefEq.respectTransparency false
set_option backward.dsimp.instances true

namespace Verif
open Spec Scanner Lexer
open M (bind_ok run_get)

variable {sm : Bool}

/-- The word lists that begin an element of a body. -/
def StmtV (G : Gram) (k : Ctx) (ws : List Str) : Prop := ∃ v ts more, Toks G k v ts ∧ words ts = ws ++ more

/-- The word lists that begin a body. -/
def BodyV (G : Gram) (k : Ctx) (ws : List Str) : Prop := ∃ vs ts more, Body G k vs ts ∧ words ts = ws ++ more

theorem Tardy.mono {V V1 : List Str → Prop} {ws : List Str} (h : Tardy V1 ws) (hV : ∀ ws, V1 ws → V ws) : Tardy V ws :=
  Tardy.map (p := []) h hV

theorem bodyV_nil {G : Gram} {k : Ctx} : BodyV G k [] := ⟨[], [], [], .nil _, rfl⟩

theorem bodyV_stmt {G : Gram} {k : Ctx} (hG : G.junk = true) {ws : List Str} (h : StmtV G k ws) : BodyV G k ws := by
  obtain ⟨v, ts, more, h1, h2⟩ := h
  exact ⟨[v], ts ++ [], more, .cons _ _ _ _ _ h1 (.nil _) (by simp [hG]), by simpa using h2⟩

theorem bodyV_cons {G : Gram} {k : Ctx} (hG : G.junk = true) {v : Visitee} {ts : List Tok} (h : Toks G k v ts)
    {ws : List Str} (hw : BodyV G k ws) : BodyV G k (words ts ++ ws) := by
  obtain ⟨vs, us, more, h1, h2⟩ := hw
  exact ⟨v :: vs, ts ++ us, more, .cons _ _ _ _ _ h h1 (by simp [hG]), by simp [h2]⟩

/-- The last part. -/
theorem Sat.lastVia {α β : Type} {B B1 : List Str → Prop} {H : Halt → Prop} {Q : α → Lexer → Prop}
    {l0 l : Lexer} {ts : List Tok} {m : P α} {f : α → P β} (ht : Took l0 ts l) (h : Sat H Q (FailV sm B1 l) (m l))
    (hB : ∀ ws, B1 ws → B (words ts ++ ws)) (hf : ∀ a l', Sat H (fun _ _ => True) (FailV sm B l0) (f a l')) :
    Sat H (fun _ _ => True) (FailV sm B l0) ((m >>= f) l) :=
  Sat.via ht h (fun ws _ => hB ws) (fun a l' _ => hf a l')

namespace Parser

theorem readEmptyStatement_via {H : Halt → Prop} {l : Lexer} (hg : Good l) :
    Sat H (fun _ _ => True) (FailV sm (· = []) l) (readEmptyStatement l) := by
  rw [readEmptyStatement_eq hg]
  by_cases h : (nextSt {} l).token = .semicolon
  · rw [if_pos h]
    trivial
  · rw [if_neg h]
    exact errsAt_putBack hg _ _ rfl

theorem recoverEmpty_via {H : Halt → Prop} {B : List Str → Prop} {l l1 : Lexer} {e : Err} (hf : FailC sm B l e l1) :
    Sat H (fun _ _ => True) (FailV sm B l) (recoverEmpty e l1) := by
  unfold recoverEmpty
  rcases hf.cut with ⟨ts, l2, h1, h2, hB⟩ | ⟨hs, h1⟩
  · show Sat H _ _ (M.bind unNext _ l1)
    unfold M.bind
    rw [h1]
    refine Sat.bind (Q := fun r l3 => (r = .ok ()) ∨ (∃ e, r = .error e ∧ FailV sm (· = []) l2 e l3))
      (Sat.attempt (readEmptyStatement_via (sm := sm) h2.good) ?_ ?_) ?_
    · rintro _ l3 _
      exact .inl rfl
    · rintro e l3 h3
      exact .inr ⟨e, rfl, h3⟩
    rintro r l3 (rfl | ⟨e', rfl, h3⟩)
    · trivial
    · exact .pair _ _ hf.errs (ErrsAt.trans h2 h3 (by
        rintro _ _ rfl
        simpa using hB))
  · obtain ⟨_, ht⟩ := hf.took
    obtain ⟨l2, h2, h3, h4⟩ := unNext_good ht.good
    show Sat H _ _ (M.bind unNext _ l1)
    unfold M.bind
    rw [h2]
    have h5 : (nextSt {} l2).token ≠ .semicolon := by
      show (lex {} l2.scanner.inp).token ≠ .semicolon
      rw [h4]; exact h1
    have h6 := readEmptyStatement_eq h3
    rw [if_neg h5] at h6
    show Sat H _ _ (M.bind (M.attempt readEmptyStatement) _ l2)
    unfold M.bind M.attempt
    rw [h6]
    exact .first _ _ hs hf.errs

/-- Try `m`; after an error, recover. -/
theorem attempt_via {α : Type} {H : Halt → Prop} {B : List Str → Prop} {l : Lexer} {m : P α} {Q : α → Lexer → Prop}
    {B' : List Str → Prop} {f : Except Err α → P Visitee} (h : Sat H Q (FailC sm B l) (m l)) (hB : ∀ ws, B ws → B' ws)
    (hf : ∀ e, f (.error e) = recoverEmpty e) (hok : ∀ x l1, Sat H (fun _ _ => True) (FailV sm B' l) (f (.ok x) l1)) :
    Sat H (fun _ _ => True) (FailV sm B' l) ((M.attempt m >>= f) l) := by
  refine Sat.bind (Q := fun r l1 => (∃ x, r = .ok x) ∨ (∃ e, r = .error e ∧ FailC sm B l e l1))
    (Sat.attempt h ?_ ?_) ?_
  · rintro x l1 _
    exact .inl ⟨x, rfl⟩
  · rintro e l1 h
    exact .inr ⟨e, rfl, h⟩
  rintro r l1 (⟨x, rfl⟩ | ⟨e, rfl, hc⟩)
  · exact hok x l1
  · rw [hf]
    exact (recoverEmpty_via hc).mono (fun _ _ h => h) (fun e l' he => ErrsAt.mono he hB)

/-! ## Enums -/

theorem enumStmt_via {H : Halt → Prop} {cfg : Cfg} {cs : List Comment} {t : Token} {l : Lexer} (hg : Good l)
    (ht : t = (nextSt .kw l).token) :
    Sat H (fun _ _ => True) (FailV (!cfg.permissive) (Tardy (StmtV cfg.gram .enum)) l) (enumStmt cfg cs t l) := by
  unfold enumStmt
  refine sat_ite (fun h => ?_) (fun h1 => ?_)
  · refine Sat.lastVia (Took.refl hg) (parseOption_via hg) ?_ (fun _ _ => trivial)
    rintro ws ⟨x, ts, more, h1, h2⟩
    exact .inl ⟨_, ts, more, .option _ x _ (by simp) h1, by simpa using h2⟩
  refine sat_ite (fun h => ?_) (fun h2 => ?_)
  · refine Sat.lastVia (Took.refl hg) (parseReserved_via (G := cfg.gram) rfl hg) ?_ (fun _ _ => trivial)
    rintro ws ⟨x, ts, more, h1, h2⟩
    exact .inl ⟨_, ts, more, .reserved _ x _ (by simp) h1, by simpa using h2⟩
  · refine attempt_via (parseEnumField_cut hg).taken ?_ (fun _ => rfl) (fun _ _ => trivial)
    rintro ws ⟨⟨us, more, k1, k2, y, k3⟩, ts, l2, rfl, h4⟩
    cases ts with
    | nil => exact .inl ⟨.comment ⟨[], ⟨{}, {}⟩⟩, [], [], .comment _ _, rfl⟩
    | cons u ts =>
      obtain ⟨v, vs, e, hv⟩ := enumFieldToks_head k3
      have hid : y.ident = u.text := by
        obtain ⟨_, sg, w, os, _, _, _, _, h5, _⟩ := id k3
        rw [h5] at k1
        simp only [words_cons, List.cons_append, List.cons.injEq] at k1
        exact k1.1
      have hu : Word u.text := by rw [← hid]; exact k3.1
      have := (took_word h4 hu (m := .kw) rfl).1
      refine .inl ⟨_, us, more, .enumField y _ k3 ?_ ?_, k1⟩
      · intro he
        rw [hid] at he
        rw [he] at this
        exact h1 (ht.trans this)
      · intro he
        rw [hid] at he
        rw [he] at this
        exact h2 (ht.trans this)

theorem enumLoop_via {H : Halt → Prop} {cfg : Cfg} {il : Option Comment} (n : Nat) :
    ∀ {l : Lexer} {vs : List Visitee}, Good l → l.scanner.inp.length < n →
    Sat H (fun _ _ => True) (FailV (!cfg.permissive) (Tardy (BodyV cfg.gram .enum)) l) (enumLoop cfg il n vs l) := by
  induction n with
  | zero => intro _ _ _ h; omega
  | succ n ih =>
    intro l vs hg hn
    unfold enumLoop
    refine stepI_comments (TookI.refl hg) (fun cs l1 ht hnc => ?_)
    simp only [List.nil_append] at ht
    refine sat_peekKeyword ht.good ?_
    have hb := back_putBack ht.good .kw
    have hnc := hnc.back hb
    have ht := ht.back hb
    refine sat_ite (fun h => ?_) (fun h => ?_)
    · exact (closeBody_sat ht.good (by rw [hb.token]; exact h) hnc).mono (fun _ _ _ => trivial) (fun _ _ h => h)
    · refine Sat.via ht.took ((enumStmt_sat ht.good (by rw [hb.token])).and' (enumStmt_via ht.good (by rw [hb.token])))
        (fun ws _ hw => by simpa using hw.mono (fun _ => bodyV_stmt rfl)) ?_
      rintro v l2 hv
      obtain ⟨h1, h2, _, _, ts, h4, h3⟩ := id hv
      refine Sat.bind (maybeScan_sat h3.took.good h1 h2) ?_
      rintro v' l3 ⟨o, rfl, ho⟩
      have htk : Took l ts l3 := by simpa using (ht.took.trans h3.took).trans ho.took.took
      have hl := htk.length
      have : 0 < ts.length := List.length_pos_iff.2 (toks_ne h4 h1 h2)
      exact Sat.tailVia htk (ih htk.good (by omega)) (fun ws _ hw => hw.map (fun _ => bodyV_cons rfl h4))

theorem word_opens {nm : Str} {k : Ctx} {G : Gram} {ws : List Str} {kw : Str} {kb : Ctx} (hw : BodyV G kb ws)
    (hT : ∀ hd bs cl vs, words hd = [kw, nm, c!"{"] → Spec.Body G kb vs bs → words cl = [c!"}"] → ∀ info, Spans (hd ++ bs ++ cl) info →
      ∃ v, Toks G k v (hd ++ bs ++ cl)) {vs rest : List Str} (h : [kw, nm, c!"{"] ++ ws = vs ++ rest) : StmtV G k vs := by
  obtain ⟨bs, is, more, h3, h4⟩ := hw
  obtain ⟨hd, h5⟩ := toks_some [kw, nm, c!"{"]
  obtain ⟨cl, h6⟩ := toks_some [c!"}"]
  obtain ⟨info, h7⟩ := spans_some (ts := hd ++ is ++ cl) (by intro e; simp at e; simp [e.1] at h5)
  obtain ⟨v, h8⟩ := hT hd is cl bs h5 h3 h6 info h7
  refine ⟨v, _, rest ++ more ++ [c!"}"], h8, ?_⟩
  simp only [words_append, h5, h6, h4, ← List.append_assoc] at h ⊢
  rw [h]

theorem opens_enum {G : Gram} {k : Ctx} (hk : k = .file ∨ k = .message) {nm : Str} {ws : List Str} (h1 : Word nm)
    (h2 : BodyV G .enum ws) {vs rest : List Str} (h : [c!"enum", nm, c!"{"] ++ ws = vs ++ rest) : StmtV G k vs :=
  word_opens h2 (fun hd bs cl vs e1 e2 e3 info e4 =>
    ⟨_, .enum k ⟨nm, vs, [], none, none, info⟩ hd bs cl hk e1 h1 e2 (.inl e3) e4⟩) h

theorem parseEnum_via {H : Halt → Prop} {cfg : Cfg} {k : Ctx} (hk : k = .file ∨ k = .message) {l : Lexer}
    (hg : Good l) :
    Sat H (fun _ _ => True) (FailV (!cfg.permissive) (Tardy (StmtV cfg.gram k)) l) (parseEnum cfg l) := by
  unfold parseEnum
  refine expect_via (.with_ .kw) rfl (by simp) (by simp) (Took.refl hg) (?_) (fun x1 l1 g1 ht => ?_)
  · exact .inl (opens_enum hk word_a bodyV_nil (by simp; rfl))
  rw [sat_position]
  refine expect_via .next rfl (by simp) (by simp) ht (?_) (fun x2 l2 g2 ht => ?_)
  · exact .inl (opens_enum hk word_a bodyV_nil (by simp [g1.kw rfl]; rfl))
  have hw : Word x2.text := g2.reads.1
  rw [sat_txt]
  refine Sat.lastVia (Q := fun _ _ => True)
    (B1 := Tardy (fun ws => ∃ more vs, [c!"{"] ++ vs = ws ++ more ∧ BodyV cfg.gram .enum vs)) ht ?_ ?_
    (fun _ _ => trivial)
  · unfold parseEnumBody
    refine expect_via .next rfl (by simp) (by simp) (Took.refl ht.good) (.inl ⟨_, [], rfl, bodyV_nil⟩) (fun x3 l3 g3 ht3 => ?_)
    refine Sat.bind (parseInline_sat ht3.good) (fun c l4 hi => ?_)
    have ht4 := ht3.nil_trans hi.nil
    rw [sat_bound]
    refine Sat.tailVia ht4 (enumLoop_via _ ht4.good (by omega)) (fun ws _ hw => hw.map (fun ws hb => ?_))
    exact ⟨[], ws, by simp [g3.punct rfl], hb⟩
  · intro ws h
    refine h.map ?_
    rintro ws ⟨more, vs, h1, h2⟩
    refine opens_enum hk hw h2 (rest := more) ?_
    simp only [List.cons_append, List.nil_append] at h1
    simp [g1.kw rfl, h1]

/-! ## Extends -/

theorem extendStmt_via {H : Halt → Prop} {cfg : Cfg} {cs : List Comment} {l : Lexer} (hg : Good l) :
    Sat H (fun _ _ => True) (FailV (!cfg.permissive) (Tardy (StmtV cfg.gram .extend)) l) (extendStmt cfg cs l) := by
  unfold extendStmt
  refine attempt_via (parseField_cut hg) ?_ (fun _ => rfl) (fun _ _ => trivial)
  rintro ws ⟨us, more, k1, k2, y, k3⟩
  exact .inl ⟨_, us, more, .field _ y _ (.inr rfl) k3 (by simp), k1⟩

theorem extendLoop_via {H : Halt → Prop} {cfg : Cfg} {il : Option Comment} (n : Nat) :
    ∀ {l : Lexer} {vs : List Visitee}, Good l → l.scanner.inp.length < n →
    Sat H (fun _ _ => True) (FailV (!cfg.permissive) (Tardy (BodyV cfg.gram .extend)) l) (extendLoop cfg il n vs l) := by
  induction n with
  | zero => intro _ _ _ h; omega
  | succ n ih =>
    intro l vs hg hn
    unfold extendLoop
    refine stepI_comments (TookI.refl hg) (fun cs l1 ht hnc => ?_)
    simp only [List.nil_append] at ht
    refine sat_peekKeyword ht.good ?_
    have hb := back_putBack ht.good .kw
    have hnc := hnc.back hb
    have ht := ht.back hb
    refine sat_ite (fun h => ?_) (fun h => ?_)
    · exact (closeBody_sat ht.good (by rw [hb.token]; exact h) hnc).mono (fun _ _ _ => trivial) (fun _ _ h => h)
    · refine Sat.via ht.took ((extendStmt_sat ht.good).and' (extendStmt_via ht.good))
        (fun ws _ hw => by simpa using hw.mono (fun _ => bodyV_stmt rfl)) ?_
      rintro v l2 hv
      obtain ⟨h1, h2, _, _, ts, h4, h3⟩ := id hv
      refine Sat.bind (maybeScan_sat h3.took.good h1 h2) ?_
      rintro v' l3 ⟨o, rfl, ho⟩
      have htk : Took l ts l3 := by simpa using (ht.took.trans h3.took).trans ho.took.took
      have hl := htk.length
      have : 0 < ts.length := List.length_pos_iff.2 (toks_ne h4 h1 h2)
      exact Sat.tailVia htk (ih htk.good (by omega)) (fun ws _ hw => hw.map (fun _ => bodyV_cons rfl h4))

theorem opens_extend {G : Gram} {k : Ctx} (hk : k = .file ∨ k = .message) {ty : Str} {ms ws : List Str}
    (h1 : MessageType ty ms) (h2 : BodyV G .extend ws) {vs rest : List Str}
    (h : c!"extend" :: ms ++ [c!"{"] ++ ws = vs ++ rest) : StmtV G k vs := by
  obtain ⟨bs, is, more, h3, h4⟩ := h2
  obtain ⟨hd, h5⟩ := toks_some (c!"extend" :: ms ++ [c!"{"])
  obtain ⟨cl, h6⟩ := toks_some [c!"}"]
  obtain ⟨info, h7⟩ := spans_some (ts := hd ++ is ++ cl) (by intro e; simp at e; simp [e.1] at h5)
  refine ⟨_, _, rest ++ more ++ [c!"}"], .extend k ⟨ty, bs, [], none, none, info⟩ ms hd is cl hk h1 h5 h3 (.inl h6) h7, ?_⟩
  simp only [words_append, h5, h6, h4, ← List.append_assoc] at h ⊢
  rw [h]

theorem messageType_a : MessageType c!"a" [c!"a"] := .plain _ _ fullIdent_a

theorem parseExtend_via {H : Halt → Prop} {cfg : Cfg} {k : Ctx} (hk : k = .file ∨ k = .message) {l : Lexer}
    (hg : Good l) :
    Sat H (fun _ _ => True) (FailV (!cfg.permissive) (Tardy (StmtV cfg.gram k)) l) (parseExtend cfg l) := by
  unfold parseExtend
  refine expect_via (.with_ .kw) rfl (by simp) (by simp) (Took.refl hg) (?_) (fun x1 l1 g1 ht => ?_)
  · exact .inl (opens_extend hk messageType_a bodyV_nil (by simp; rfl))
  rw [sat_position]
  refine Sat.viaC ht (readMessageType_cut ht.good) ?_ ?_
  · rintro ws _ ⟨s, more, h⟩
    exact .inl (opens_extend hk h bodyV_nil (rest := more ++ [c!"{"]) (by simp [g1.kw rfl]))
  rintro ⟨ty, q0⟩ l2 ⟨ms, h0, h0', _⟩
  have ht := ht.trans h0'
  refine Sat.via (B1 := Tardy (fun ws => ∃ more vs, [c!"{"] ++ vs = ws ++ more ∧ BodyV cfg.gram .extend vs))
    (Q := fun _ _ => True) ht ?_ ?_ (fun _ _ _ => trivial)
  · unfold parseExtendBody
    refine expect_via .next rfl (by simp) (by simp) (Took.refl ht.good) (.inl ⟨_, [], rfl, bodyV_nil⟩) (fun x3 l3 g3 ht3 => ?_)
    refine Sat.bind (parseInline_sat ht3.good) (fun c l4 hi => ?_)
    have ht4 := ht3.nil_trans hi.nil
    refine sat_next ht4.good ?_
    rw [sat_tok]
    refine sat_ite (fun h => ?_) (fun h => ?_)
    · have g := got_next (m := {}) rfl h (by simp) (by simp)
      have ht5 := next_took ht4.good (m := {}) rfl (by rw [h]; simp)
      refine Sat.bind (blockLastPos_sat (cfg := cfg) ht5.good (g.punct rfl) rfl
        (got_line rfl (by simp) (by simp) g (g.punct rfl) (by decide))) (fun _ _ _ => trivial)
    · refine sat_unNext ?_
      have hbk := back_putBack ht4.good {}
      have ht5 := ht4.nil_trans (hbk.took ht4.good)
      rw [sat_bound]
      refine Sat.tailVia ht5 (extendLoop_via _ ht5.good (by omega)) (fun ws _ hw => hw.map (fun ws hb => ?_))
      exact ⟨[], ws, by simp [g3.punct rfl], hb⟩
  · intro ws hnil h
    rcases h0 with h0 | ⟨hend, s', more, hs⟩
    case inr =>
      rw [hnil hend]
      exact .inl (opens_extend hk hs bodyV_nil (rest := more ++ [c!"{"]) (by simp [g1.kw rfl]))
    refine h.map ?_
    rintro ws ⟨more, vs, h1, h2⟩
    refine opens_extend hk h0 h2 (rest := more) ?_
    simp only [List.cons_append, List.nil_append] at h1
    simp [g1.kw rfl, h1]

/-! ## Services -/

theorem opens_rpcMessage {b : Bool} {ty : Str} {ms : List Str} (h1 : MessageType ty ms)
    (h2 : b = false → ms.head? ≠ some c!"stream") {vs more : List Str}
    (h : c!"(" :: (if b then [c!"stream"] else []) ++ ms ++ [c!")"] = vs ++ more) : Opens RPCMessageToks vs := by
  obtain ⟨ts, info, h4⟩ := written_some (ws := c!"(" :: (if b then [c!"stream"] else []) ++ ms ++ [c!")"]) (by simp)
  exact ⟨⟨b, ty, info⟩, ts, more, ⟨ms, h1, h2, h4⟩, h4.1.trans h⟩

theorem parseRPCMessage_via {H : Halt → Prop} {l : Lexer} (hg : Good l) :
    Sat H (fun _ _ => True) (FailV sm (Opens RPCMessageToks) l) (parseRPCMessage l) := by
  unfold parseRPCMessage
  refine expect_via .next rfl (by simp) (by simp) (Took.refl hg) (?_) (fun x1 l1 g1 ht => ?_)
  · exact opens_rpcMessage (b := true) messageType_a (by simp) (by simp; rfl)
  rw [sat_position]
  refine sat_nextWith ht.good ?_
  rw [sat_tok]
  refine sat_ite (fun h => ?_) (fun h => ?_)
  · refine sat_unNext ?_
    have hb := back_putBack ht.good .kw
    have ht := ht.nil_trans (hb.took ht.good)
    have key : ∀ {us l2 s more}, Took (putBack .kw l1) us l2 → MessageType s (words us ++ more) → words us ≠ [] →
        (words us ++ more).head? ≠ some c!"stream" := by
      intro us l2 s more h1 h0 hne hw
      obtain ⟨w, vs, e, hx⟩ := messageType_head h0
      rw [e] at hw
      simp only [List.head?_cons, Option.some.injEq] at hw
      subst hw
      rcases hx with hx | hx
      · simp at hx
      · cases hus : words us with
        | nil => exact hne hus
        | cons v vs' =>
          rw [hus] at e
          simp only [List.cons_append, List.cons.injEq] at e
          rw [e.1] at hus
          have := (took_first h1 hus hx (m := .kw) rfl).1
          rw [hb.token] at this
          exact h this
    refine Sat.viaC ht (readMessageType_cut ht.good).taken ?_ ?_
    · rintro ws _ ⟨⟨s, more, hs⟩, us, l2, rfl, h4⟩
      by_cases hn : words us = []
      · exact opens_rpcMessage (b := true) messageType_a (by simp) (more := [c!"stream", c!"a", c!")"]) (by simp [g1.punct rfl, hn])
      · exact opens_rpcMessage (b := false) hs (fun _ => key h4 hs hn) (more := more ++ [c!")"]) (by simp [g1.punct rfl])
    rintro ⟨ty, q0⟩ l2 ⟨ms, h0, h1, _⟩
    have ht := ht.trans h1
    refine expect_via .next rfl (by simp) (by simp) ht ?_ (fun x3 l3 g3 ht => ?_)
    · obtain ⟨s', more, hs⟩ := h0.begins
      by_cases hn : words ms = []
      · exact opens_rpcMessage (b := true) messageType_a (by simp) (more := [c!"stream", c!"a", c!")"]) (by simp [g1.punct rfl, hn])
      · exact opens_rpcMessage (b := false) hs (fun _ => key h1 hs hn) (more := more ++ [c!")"]) (by simp [g1.punct rfl])
    rw [sat_position]
    trivial
  · have h : (nextSt .kw l1).token = .kStream := by simpa using h
    have g := got_next (m := .kw) rfl h (by simp) (by simp)
    have ht := ht.trans (next_took ht.good (m := .kw) rfl (by rw [h]; simp))
    generalize nextSt .kw l1 = l2 at ht g
    generalize nextTok .kw l1 = x2 at ht g
    refine Sat.viaC ht (readMessageType_cut ht.good) ?_ ?_
    · rintro ws _ ⟨s, more, hs⟩
      exact opens_rpcMessage (b := true) hs (by simp) (more := more ++ [c!")"]) (by simp [g1.punct rfl, g.kw rfl])
    rintro ⟨ty, q0⟩ l3 ⟨ms, h0, h1, _⟩
    have ht := ht.trans h1
    refine expect_via .next rfl (by simp) (by simp) ht ?_ (fun x4 l4 g4 ht => ?_)
    · obtain ⟨s', more, hs⟩ := h0.begins
      exact opens_rpcMessage (b := true) hs (by simp) (more := more ++ [c!")"]) (by simp [g1.punct rfl, g.kw rfl])
    rw [sat_position]
    trivial

/-- The beginnings of the options of an rpc. -/
def RPCOptionsV (G : Gram) (ws : List Str) : Prop := ∃ os ts more, RPCOptions G os ts ∧ words ts = ws ++ more

theorem rpcOptionsV_nil {G : Gram} : RPCOptionsV G [] := ⟨_, _, [], .nil, rfl⟩

theorem rpcOptionsStmt_via {H : Halt → Prop} {cfg : Cfg} {l : Lexer} (hg : Good l) :
    Sat H (fun _ _ => True) (FailV (!cfg.permissive) (RPCOptionsV cfg.gram) l) (rpcOptionsStmt cfg l) := by
  unfold rpcOptionsStmt
  refine sat_peekKeyword hg ?_
  have hb := back_putBack hg .kw
  have ht := hb.took hg
  refine sat_ite (fun h => ?_) (fun h1 => ?_)
  · refine Sat.lastVia ht (parseOption_via ht.good) ?_ (fun _ _ => trivial)
    rintro ws ⟨x, ts, more, h1, h2⟩
    exact ⟨_, _, more, by simpa using RPCOptions.option x _ _ _ h1 .nil, by simpa using h2⟩
  refine sat_ite (fun h => trivial) (fun h2 => ?_)
  refine Sat.lastVia ht (readEmptyStatement_via ht.good) ?_ (fun _ _ => trivial)
  rintro _ rfl
  exact rpcOptionsV_nil

theorem rpcOptionsLoop_via {H : Halt → Prop} {cfg : Cfg} (n : Nat) :
    ∀ {l : Lexer} {acc : List OptionStmt}, Good l → l.scanner.inp.length < n →
    Sat H (fun _ _ => True) (FailV (!cfg.permissive) (RPCOptionsV cfg.gram) l) (rpcOptionsLoop cfg n acc l) := by
  induction n with
  | zero => intro _ _ _ h; omega
  | succ n ih =>
    intro l acc hg hn
    unfold rpcOptionsLoop
    refine Sat.via (Took.refl hg) ((rpcOptionsStmt_sat hg).and' (rpcOptionsStmt_via hg)) (fun _ _ h => h) ?_
    rintro os l1 ⟨ts, h1, ht, h2, h0⟩
    refine sat_next ht.good ?_
    rw [sat_tok]
    refine sat_ite (fun h => trivial) (fun h => ?_)
    have hne : ts ≠ [] := fun h' => h (h2 h')
    have : 0 < ts.length := List.length_pos_iff.2 hne
    refine sat_unNext ?_
    have ht := ht.nil_trans (took_putBack ht.good {})
    have hl := ht.length
    refine Sat.tailVia ht (ih ht.good (by omega)) ?_
    rintro ws _ ⟨os', us, more, h3, h4⟩
    exact ⟨_, _, more, rpcOptions_append h1 h3, by simp [h4]⟩

theorem opens_rpc {G : Gram} {nm : Str} {rq rs : RPCMessage} {qs ss : List Tok} {ws : List Str} (h1 : Word nm)
    (h2 : RPCMessageToks rq qs) (h3 : RPCMessageToks rs ss) (h4 : RPCOptionsV G ws) {vs rest : List Str}
    (h : [c!"rpc", nm] ++ words qs ++ [c!"returns"] ++ words ss ++ [c!"{"] ++ ws = vs ++ rest) : Opens (RPCToks G) vs := by
  obtain ⟨os, is, more, h5, h6⟩ := h4
  obtain ⟨hd, h7⟩ := toks_some [c!"rpc", nm]
  obtain ⟨cl, h8⟩ := toks_some [c!"}"]
  obtain ⟨info, h9⟩ := spans_some (ts := hd ++ qs ++ ⟨c!"returns", {}⟩ :: ss ++ (⟨c!"{", {}⟩ :: is ++ cl)) (by simp)
  refine ⟨⟨nm, rq, rs, os, [], none, none, [], info⟩, _, rest ++ more ++ [c!"}"],
    ⟨h1, hd, qs, _, ss, ⟨c!"{", {}⟩ :: is ++ cl, h7, h2, rfl, h3, .inr ⟨_, is, cl, rfl, h5, .inl h8, rfl⟩, rfl, h9⟩, ?_⟩
  have : words (hd ++ qs ++ ⟨c!"returns", {}⟩ :: ss ++ (⟨c!"{", {}⟩ :: is ++ cl)) =
      ([c!"rpc", nm] ++ words qs ++ [c!"returns"] ++ words ss ++ [c!"{"] ++ ws) ++ more ++ [c!"}"] := by
    simp [h7, h8, h6]
  rw [this, h]
  simp

theorem rpcMessage_some : ∃ x ts, RPCMessageToks x ts := by
  obtain ⟨x, ts, _, h, _⟩ := opens_rpcMessage (b := true) messageType_a (by simp) (vs := []) (by simp; rfl)
  exact ⟨x, ts, h⟩

theorem parseRPC_via {H : Halt → Prop} {cfg : Cfg} {l : Lexer} (hg : Good l) :
    Sat H (fun _ _ => True) (FailV (!cfg.permissive) (Opens (RPCToks cfg.gram)) l) (parseRPC cfg l) := by
  obtain ⟨mx, mt, hm⟩ := rpcMessage_some
  unfold parseRPC
  refine expect_via (.with_ .kw) rfl (by simp) (by simp) (Took.refl hg) (?_) (fun x1 l1 g1 ht => ?_)
  · exact opens_rpc word_a hm hm rpcOptionsV_nil (by simp; rfl)
  rw [sat_position]
  refine expect_via .next rfl (by simp) (by simp) ht (?_) (fun x2 l2 g2 ht => ?_)
  · exact opens_rpc word_a hm hm rpcOptionsV_nil (by simp [g1.kw rfl]; rfl)
  have hw : Word x2.text := g2.reads.1
  rw [sat_txt]
  refine Sat.via ht ((parseRPCMessage_sat (sm := !cfg.permissive) ht.good).and' (parseRPCMessage_via ht.good)) ?_ ?_
  · rintro ws _ ⟨x, ts, more, h1, h2⟩
    exact opens_rpc hw h1 hm rpcOptionsV_nil (rest := more ++ [c!"returns"] ++ words mt ++ [c!"{"]) (by simp [g1.kw rfl, h2])
  rintro rq l3 ⟨qs, h1, h2⟩
  have ht := ht.trans h2
  refine expect_via (.with_ .kw) rfl (by simp) (by simp) ht (?_) (fun x4 l4 g4 ht => ?_)
  · exact opens_rpc hw h1 hm rpcOptionsV_nil (rest := [c!"returns"] ++ words mt ++ [c!"{"]) (by simp [g1.kw rfl])
  refine Sat.via ht ((parseRPCMessage_sat (sm := !cfg.permissive) ht.good).and' (parseRPCMessage_via ht.good)) ?_ ?_
  · rintro ws _ ⟨x, ts, more, h3, h4⟩
    exact opens_rpc hw h1 h3 rpcOptionsV_nil (rest := more ++ [c!"{"]) (by simp [g1.kw rfl, g4.kw rfl, h4])
  rintro rs l5 ⟨ss, h3, h4⟩
  have ht := ht.trans h4
  refine sat_next ht.good ?_
  rw [sat_position]
  have hfe : ∀ {α : Type} {Q : α → Lexer → Prop} {E : Err → Lexer → Prop} {f : List Comment → P α} {a b : SPos}
      {l : Lexer}, Sat H Q E (f ((l.findMidComments a b).map (fun c => mkComment c.literal c.pos)) l) →
      Sat H Q E ((findEmbeddedComments a b >>= f) l) := fun h => h
  refine hfe ?_
  rw [sat_tok]
  refine sat_ite (fun h => ?_) (fun h5 => ?_)
  · refine sat_unNext ?_
    have ht := ht.nil_trans (took_putBack ht.good {})
    refine Sat.bind (Q := fun r l' => ∃ x6 : Tok, Good l' ∧ x6.text = c!"}" ∧ x6.pos = l'.pos.p ∧ l'.scanner.pos.p.line = x6.pos.line) ?_ ?_
    · unfold parseRPCOptions
      refine expect_via .next rfl (by simp) (by simp) ht (?_) (fun x5 l5' g5 ht => ?_)
      · exact opens_rpc hw h1 h3 rpcOptionsV_nil (rest := [c!"{"]) (by simp [g1.kw rfl, g4.kw rfl])
      refine step_inline ht (fun c l6 ht _ _ => ?_)
      rw [sat_bound]
      refine Sat.via ht ((rpcOptionsLoop_sat _ ht.good (by omega)).and' (rpcOptionsLoop_via _ ht.good (by omega))) ?_ ?_
      · rintro ws _ h
        exact opens_rpc hw h1 h3 h (rest := []) (by simp [g1.kw rfl, g4.kw rfl, g5.punct rfl])
      rintro r l7 ⟨os, us, x, rfl, h6, h7, h8, h9, h10, h11, h0⟩
      exact ⟨x, h9.good, h7, h8, h11⟩
    · rintro ⟨os, c⟩ l6 ⟨x6, hg6, h8, h9, h9'⟩
      exact Sat.bind (blockLastPos_sat hg6 h8 h9 h9') (fun _ _ _ => trivial)
  refine sat_ite (fun h => trivial) (fun h6 => unexpected_via ht (?_))
  exact opens_rpc hw h1 h3 rpcOptionsV_nil (rest := [c!"{"]) (by simp [g1.kw rfl, g4.kw rfl])

theorem serviceStmt_via {H : Halt → Prop} {cfg : Cfg} {cs : List Comment} {t : Token} {l : Lexer} (hg : Good l) :
    Sat H (fun _ _ => True) (FailV (!cfg.permissive) (Tardy (StmtV cfg.gram .service)) l) (serviceStmt cfg cs t l) := by
  unfold serviceStmt
  refine sat_ite (fun h => ?_) (fun h1 => ?_)
  · refine Sat.lastVia (Took.refl hg) (parseOption_via hg) ?_ (fun _ _ => trivial)
    rintro ws ⟨x, ts, more, h1, h2⟩
    exact .inl ⟨_, ts, more, .option _ x _ (by simp) h1, by simpa using h2⟩
  refine sat_ite (fun h => ?_) (fun h2 => ?_)
  · refine Sat.lastVia (Took.refl hg) (parseRPC_via hg) ?_ (fun _ _ => trivial)
    rintro ws ⟨x, ts, more, h1, h2⟩
    exact .inl ⟨_, ts, more, .rpc x _ h1, by simpa using h2⟩
  · refine Sat.lastVia (Took.refl hg) (readEmptyStatement_via hg) ?_ (fun _ _ => trivial)
    rintro _ rfl
    exact .inl ⟨.comment ⟨[], ⟨{}, {}⟩⟩, [], [], .comment _ _, rfl⟩

theorem serviceLoop_via {H : Halt → Prop} {cfg : Cfg} {il : Option Comment} (n : Nat) :
    ∀ {l : Lexer} {vs : List Visitee}, Good l → l.scanner.inp.length < n →
    Sat H (fun _ _ => True) (FailV (!cfg.permissive) (Tardy (BodyV cfg.gram .service)) l) (serviceLoop cfg il n vs l) := by
  induction n with
  | zero => intro _ _ _ h; omega
  | succ n ih =>
    intro l vs hg hn
    unfold serviceLoop
    refine stepI_comments (TookI.refl hg) (fun cs l1 ht hnc => ?_)
    simp only [List.nil_append] at ht
    refine sat_peekKeyword ht.good ?_
    have hb := back_putBack ht.good .kw
    have hnc := hnc.back hb
    have ht := ht.back hb
    refine sat_ite (fun h => ?_) (fun h => ?_)
    · exact (closeBody_sat ht.good (by rw [hb.token]; exact h) hnc).mono (fun _ _ _ => trivial) (fun _ _ h => h)
    · refine Sat.via ht.took ((serviceStmt_sat ht.good).and' (serviceStmt_via ht.good))
        (fun ws _ hw => by simpa using hw.mono (fun _ => bodyV_stmt rfl)) ?_
      rintro v l2 hv
      obtain ⟨h1, h2, _, _, ts, h4, h3⟩ := id hv
      refine Sat.bind (maybeScan_sat h3.took.good h1 h2) ?_
      rintro v' l3 ⟨o, rfl, ho⟩
      have htk : Took l ts l3 := by simpa using (ht.took.trans h3.took).trans ho.took.took
      have hl := htk.length
      have : 0 < ts.length := List.length_pos_iff.2 (toks_ne h4 h1 h2)
      exact Sat.tailVia htk (ih htk.good (by omega)) (fun ws _ hw => hw.map (fun _ => bodyV_cons rfl h4))

theorem opens_service {G : Gram} {nm : Str} {ws : List Str} (h1 : Word nm)
    (h2 : BodyV G .service ws) {vs rest : List Str} (h : [c!"service", nm, c!"{"] ++ ws = vs ++ rest) : StmtV G .file vs :=
  word_opens h2 (fun hd bs cl vs e1 e2 e3 info e4 =>
    ⟨_, .service ⟨nm, vs, [], none, none, info⟩ hd bs cl e1 h1 e2 (.inl e3) e4⟩) h

theorem parseService_via {H : Halt → Prop} {cfg : Cfg} {l : Lexer} (hg : Good l) :
    Sat H (fun _ _ => True) (FailV (!cfg.permissive) (Tardy (StmtV cfg.gram .file)) l) (parseService cfg l) := by
  unfold parseService
  refine expect_via (.with_ .kw) rfl (by simp) (by simp) (Took.refl hg) (?_) (fun x1 l1 g1 ht => ?_)
  · exact .inl (opens_service word_a bodyV_nil (by simp; rfl))
  rw [sat_position]
  refine expect_via .next rfl (by simp) (by simp) ht (?_) (fun x2 l2 g2 ht => ?_)
  · exact .inl (opens_service word_a bodyV_nil (by simp [g1.kw rfl]; rfl))
  have hw : Word x2.text := g2.reads.1
  rw [sat_txt]
  refine Sat.lastVia (Q := fun _ _ => True)
    (B1 := Tardy (fun ws => ∃ more vs, [c!"{"] ++ vs = ws ++ more ∧ BodyV cfg.gram .service vs)) ht ?_ ?_
    (fun _ _ => trivial)
  · unfold parseServiceBody
    refine expect_via .next rfl (by simp) (by simp) (Took.refl ht.good) (.inl ⟨_, [], rfl, bodyV_nil⟩) (fun x3 l3 g3 ht3 => ?_)
    refine Sat.bind (parseInline_sat ht3.good) (fun c l4 hi => ?_)
    have ht4 := ht3.nil_trans hi.nil
    rw [sat_bound]
    refine Sat.tailVia ht4 (serviceLoop_via _ ht4.good (by omega)) (fun ws _ hw => hw.map (fun ws hb => ?_))
    exact ⟨[], ws, by simp [g3.punct rfl], hb⟩
  · intro ws h
    refine h.map ?_
    rintro ws ⟨more, vs, h1, h2⟩
    refine opens_service hw h2 (rest := more) ?_
    simp only [List.cons_append, List.nil_append] at h1
    simp [g1.kw rfl, h1]

end Parser
end Verif
