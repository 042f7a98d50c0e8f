import Verif.Proofs.Viable

/-!
# Where errors are reported: map fields, oneofs
-/

set_option backward.isDefEq.respectTransparency false
set_option backward.dsimp.instances true

namespace Verif
open Spec Scanner Lexer
open M (bind_ok run_get)

variable {sm : Bool}

namespace Parser

theorem opens_map {G : Gram} {key ty nm num : Str} {ws os : List Str} {opts : List FieldOption} (h1 : key ∈ keyTypes)
    (h2 : TypeName ty ws) (h4 : Word nm) (h5 : IntLit num) (h6 : FieldOptions G opts os) {vs more : List Str}
    (h : [c!"map", c!"<", key, c!","] ++ ws ++ [c!">", nm, c!"=", num] ++ os ++ [c!";"] = vs ++ more) :
    Opens (MapFieldToks G) vs := by
  obtain ⟨ts, info, h7⟩ := written_some
    (ws := [c!"map", c!"<", key, c!","] ++ ws ++ [c!">", nm, c!"=", num] ++ os ++ [c!";"]) (by simp)
  exact ⟨⟨key, ty, nm, num, opts, [], none, info⟩, ts, more, ⟨h1, h4, h5, ws, os, h2, h6, h7⟩, h7.1.trans h⟩

theorem typeName_a : TypeName c!"a" [c!"a"] := .named _ _ (.plain _ _ fullIdent_a) (by simp; decide)

theorem key_int32 : c!"int32" ∈ keyTypes := by decide

theorem parseKeyType_via {H : Halt → Prop} {l : Lexer} (hg : Good l) :
    Sat H (fun r l' => ∃ ts, words ts = [r] ∧ r ∈ keyTypes ∧ Took l ts l')
      (FailV sm (· = []) l) (parseKeyType l) := by
  unfold parseKeyType
  refine sat_next hg ?_
  rw [sat_txt]
  refine sat_ite (fun h => ?_) (fun h => unexpected_via (Took.refl hg) (rfl))
  have hne : (nextSt {} l).text ≠ [] := by
    intro h'; rw [h'] at h; revert h; decide
  have h5 := next_text (l := l) (m := {}) rfl hne
  have hnf : (nextSt {} l).token ≠ .eof := fun h => hne (eof_took hg (m := {}) rfl h).2.2
  exact ⟨[nextTok {} l], by simp [h5], h, next_took hg rfl hnf⟩

theorem parseMapField_via {H : Halt → Prop} {cfg : Cfg} {l : Lexer} (hg : Good l) :
    Sat H (fun _ _ => True) (FailV (!cfg.permissive) (Opens (MapFieldToks cfg.gram)) l) (parseMapField cfg l) := by
  unfold parseMapField
  refine expect_via (.with_ .kw) rfl (by simp) (by simp) (Took.refl hg) (?_) (fun x1 l1 g1 ht => ?_)
  · exact opens_map key_int32 typeName_a word_a int_one .none (by simp; rfl)
  rw [sat_position]
  refine expect_via .next rfl (by simp) (by simp) ht (?_) (fun x2 l2 g2 ht => ?_)
  · exact opens_map key_int32 typeName_a word_a int_one .none (by simp [g1.kw rfl]; rfl)
  refine Sat.via ht (parseKeyType_via ht.good) ?_ ?_
  · rintro _ _ rfl
    exact opens_map key_int32 typeName_a word_a int_one .none (by simp [g1.kw rfl, g2.punct rfl]; rfl)
  rintro key l3 ⟨ks, h1, h2, h3⟩
  have ht := ht.trans h3
  refine expect_via .next rfl (by simp) (by simp) ht (?_) (fun x4 l4 g4 ht => ?_)
  · exact opens_map h2 typeName_a word_a int_one .none (by simp [g1.kw rfl, g2.punct rfl, h1]; rfl)
  refine Sat.viaC ht (orUnexpected_cut (parseType_cut ht.good)) ?_ ?_
  · rintro ws _ ⟨s, more, hs⟩
    exact opens_map h2 hs word_a int_one .none (more := more ++ [c!">", c!"a", c!"=", c!"1", c!";"])
      (by simp [g1.kw rfl, g2.punct rfl, h1, g4.punct rfl])
  rintro ⟨ty, q⟩ l5 ⟨us, h4, h5, _⟩
  have ht := ht.trans h5
  refine expect_via .next rfl (by simp) (by simp) ht ?_ (fun x6 l6 g6 ht => ?_)
  · obtain ⟨s', more, hs⟩ := h4.begins
    exact opens_map h2 hs word_a int_one .none (more := more ++ [c!">", c!"a", c!"=", c!"1", c!";"])
      (by simp [g1.kw rfl, g2.punct rfl, h1, g4.punct rfl])
  have h4 : TypeName ty (words us) := h4.whole (fun h => got_not_nil g6 h (by simp))
  refine expect_via .next rfl (by simp) (by simp) ht (?_) (fun x7 l7 g7 ht => ?_)
  · exact opens_map h2 h4 word_a int_one .none (more := [c!"a", c!"=", c!"1", c!";"])
      (by simp [g1.kw rfl, g2.punct rfl, h1, g4.punct rfl, g6.punct rfl])
  have hw : Word x7.text := g7.reads.1
  rw [sat_txt]
  refine expect_via .next rfl (by simp) (by simp) ht (?_) (fun x8 l8 g8 ht => ?_)
  · exact opens_map h2 h4 hw int_one .none (more := [c!"=", c!"1", c!";"])
      (by simp [g1.kw rfl, g2.punct rfl, h1, g4.punct rfl, g6.punct rfl])
  refine Sat.viaC ht (orUnexpected_cut (parseFieldNumber_cut ht.good)) ?_ ?_
  · rintro _ _ rfl
    exact opens_map h2 h4 hw int_one .none (more := [c!"1", c!";"])
      (by simp [g1.kw rfl, g2.punct rfl, h1, g4.punct rfl, g6.punct rfl, g8.punct rfl])
  rintro num l9 ⟨ns, h6, h7, h8⟩
  have ht := ht.trans h8
  refine Sat.viaC ht (parseFieldOptionsOption_cut ht.good) ?_ ?_
  · rintro ws _ ⟨s, more, hs⟩
    exact opens_map h2 h4 hw h7 hs (more := more ++ [c!";"])
      (by simp [g1.kw rfl, g2.punct rfl, h1, g4.punct rfl, g6.punct rfl, g8.punct rfl, h6])
  rintro opts l10 ⟨os, h9, h10⟩
  have ht := ht.trans h10
  refine expect_via .next rfl (by simp) (by simp) ht (?_) (fun x11 l11 g11 ht => ?_)
  · exact opens_map h2 h4 hw h7 h9 (more := [c!";"])
      (by simp [g1.kw rfl, g2.punct rfl, h1, g4.punct rfl, g6.punct rfl, g8.punct rfl, h6])
  rw [sat_position]
  trivial

/-! ## Oneofs -/

theorem opens_oneofField {G : Gram} {ty nm num : Str} {ws os : List Str} {opts : List FieldOption}
    (h2 : TypeName ty ws) (h3 : ∀ w ∈ ws.head?, w ≠ c!"option") (h4 : Word nm) (h5 : IntLit num)
    (h6 : FieldOptions G opts os) {vs more : List Str}
    (h : ws ++ [nm, c!"=", num] ++ os ++ [c!";"] = vs ++ more) : Opens (OneofFieldToks G) vs := by
  obtain ⟨ts, info, h7⟩ := written_some (ws := ws ++ [nm, c!"=", num] ++ os ++ [c!";"]) (by simp)
  exact ⟨⟨ty, nm, num, opts, [], none, info⟩, ts, more, ⟨h4, h5, ws, os, h2, h3, h6, h7⟩, h7.1.trans h⟩

theorem parseOneofField_via {H : Halt → Prop} {cfg : Cfg} {l : Lexer} (hg : Good l)
    (hk : (nextSt .kw l).token ≠ .kOption) :
    Sat H (fun _ _ => True) (FailV (!cfg.permissive) (Opens (OneofFieldToks cfg.gram)) l) (parseOneofField cfg l) := by
  have hhead : ∀ {us l2 s more}, Took l us l2 → TypeName s (words us ++ more) → words us ≠ [] →
      ∀ w ∈ (words us ++ more).head?, w ≠ c!"option" := by
    intro us l2 s more h4 h3 hne w hw
    obtain ⟨w', ws', e, hx⟩ := typeName_ne h3
    rw [e] at hw
    simp only [List.head?_cons, Option.mem_def, Option.some.injEq] at hw
    subst hw
    rintro rfl
    rcases hx with hx | hx
    · simp at hx
    · cases hus : words us with
      | nil => exact hne hus
      | cons v vs =>
        rw [hus] at e
        simp only [List.cons_append, List.cons.injEq] at e
        rw [e.1] at hus
        exact hk (took_first h4 hus hx (m := .kw) rfl).1
  unfold parseOneofField
  refine Sat.viaC (Took.refl hg) (orUnexpected_cut (parseType_cut hg)).taken ?_ ?_
  · rintro ws _ ⟨⟨s, more, hs⟩, us, l2, rfl, h4⟩
    by_cases hn : words us = []
    · exact opens_oneofField typeName_a (by simp) word_a int_one .none
        (more := [c!"a", c!"a", c!"=", c!"1", c!";"]) (by simp [hn])
    · exact opens_oneofField hs (hhead h4 hs hn) word_a int_one .none
        (more := more ++ [c!"a", c!"=", c!"1", c!";"]) (by simp)
  rintro ⟨ty, q⟩ l2 ⟨us, h3, ht, hq⟩
  have hd : TypeName ty (words us) → ∀ w ∈ (words us).head?, w ≠ c!"option" := by
    intro h3
    have := hhead (more := []) ht (by simpa using h3) (by
      obtain ⟨w, us, hw, _⟩ := typeName_ne h3
      rw [hw]; simp)
    simpa using this
  refine expect_via .next rfl (by simp) (by simp) ht ?_ (fun x3 l3 g3 ht => ?_)
  · obtain ⟨s', more, hs⟩ := h3.begins
    by_cases hn : words us = []
    · exact opens_oneofField typeName_a (by simp) word_a int_one .none
        (more := [c!"a", c!"a", c!"=", c!"1", c!";"]) (by simp [hn])
    · exact opens_oneofField hs (hhead ht hs hn) word_a int_one .none
        (more := more ++ [c!"a", c!"=", c!"1", c!";"]) (by simp)
  have h3 : TypeName ty (words us) := h3.whole (fun h => got_not_nil g3 h (by simp))
  have hd := hd h3
  have hw : Word x3.text := g3.reads.1
  rw [sat_txt]
  refine expect_via .next rfl (by simp) (by simp) ht (?_) (fun x4 l4 g4 ht => ?_)
  · exact opens_oneofField h3 hd hw int_one .none (more := [c!"=", c!"1", c!";"]) (by simp)
  refine Sat.viaC ht (orUnexpected_cut (parseFieldNumber_cut ht.good)) ?_ ?_
  · rintro _ _ rfl
    exact opens_oneofField h3 hd hw int_one .none (more := [c!"1", c!";"]) (by simp [g4.punct rfl])
  rintro num l5 ⟨ns, h5, h6, h7⟩
  have ht := ht.trans h7
  refine Sat.viaC ht (parseFieldOptionsOption_cut ht.good) ?_ ?_
  · rintro ws _ ⟨s, more, hs⟩
    exact opens_oneofField h3 hd hw h6 hs (more := more ++ [c!";"]) (by simp [g4.punct rfl, h5])
  rintro opts l6 ⟨os, h8, h9⟩
  have ht := ht.trans h9
  refine expect_via .next rfl (by simp) (by simp) ht (?_) (fun x7 l7 g7 ht => ?_)
  · exact opens_oneofField h3 hd hw h6 h8 (more := [c!";"]) (by simp [g4.punct rfl, h5])
  rw [sat_position]
  trivial

/-- The beginnings of the elements of a oneof. -/
def OneofOpens (G : Gram) (ws : List Str) : Prop := ∃ fs os ts more, OneofItems G fs os ts ∧ words ts = ws ++ more

theorem parseOneofElement_via {H : Halt → Prop} {cfg : Cfg} {cs : List Comment} {l : Lexer} (hg : Good l) :
    Sat H (fun _ _ => True)
      (FailV (!cfg.permissive) (fun ws => Opens (OptionToks cfg.gram) ws ∨ Opens (OneofFieldToks cfg.gram) ws) l)
      (parseOneofElement cfg cs l) := by
  unfold parseOneofElement
  refine sat_peekKeyword hg ?_
  have hb := back_putBack hg .kw
  refine sat_ite (fun h => ?_) (fun h => ?_)
  · refine Sat.via (hb.took hg) ((parseOption_sat hb.good).and' (parseOption_via hb.good)) (fun ws _ h => .inl (by simpa using h)) ?_
    rintro o l1 ⟨ts, h1, h2⟩
    refine Sat.bind (parseInline_sat h2.good) ?_
    intro c l2 hc
    trivial
  · refine Sat.via (hb.took hg) ((parseOneofField_sat hb.good (by rw [hb.token]; exact h)).and'
      (parseOneofField_via hb.good (by rw [hb.token]; exact h))) (fun ws _ h => .inr (by simpa using h)) ?_
    rintro o l1 ⟨ts, h1, h2⟩
    refine Sat.bind (parseInline_sat h2.good) ?_
    intro c l2 hc
    trivial

theorem oneofField_some {G : Gram} : ∃ x ts, OneofFieldToks G x ts := by
  obtain ⟨x, ts, _, h, _⟩ := opens_oneofField (G := G) typeName_a (by simp) word_a int_one .none (vs := []) (by simp; rfl)
  exact ⟨x, ts, h⟩

theorem oneofOpens_nil {G : Gram} : OneofOpens G [] := by
  obtain ⟨x, ts, h⟩ := oneofField_some (G := G)
  exact ⟨_, _, ts, words ts, .lastField _ _ h, rfl⟩

theorem oneofLoop_via {H : Halt → Prop} {cfg : Cfg} (n : Nat) :
    ∀ {l : Lexer} {fa : List OneofField} {oa : List OptionStmt}, Good l → l.scanner.inp.length < n →
    Sat H (fun _ _ => True) (FailV (!cfg.permissive) (OneofOpens cfg.gram) l) (oneofLoop cfg n fa oa l) := by
  induction n with
  | zero => intro _ _ _ _ h; omega
  | succ n ih =>
    intro l fa oa hg hn
    unfold oneofLoop
    refine stepI_comments (TookI.refl hg) (fun cs l1 ht hnc => ?_)
    simp only [List.nil_append] at ht
    have hl1 := ht.took.length
    simp at hl1
    refine Sat.bind (Q := fun r l2 => (∃ x, r = .ok () ∧ x.text = c!";" ∧ Took l [x] l2) ∨
      (∃ e, r = .error e ∧ TookI l (coms cs) l2 ∧ NoCom l2))
      (Sat.attempt (readEmptyStatement_sat (sm := !cfg.permissive) ht.good) ?_ ?_) ?_
    · rintro _ l2 ⟨x, h1, h2, _, h3, _⟩
      exact .inl ⟨x, rfl, h1, by simpa using ht.took.trans h2⟩
    · rintro e l2 ⟨_, rfl, _⟩
      exact .inr ⟨e, rfl, ht.back (back_putBack ht.good _), hnc.back (back_putBack ht.good _)⟩
    rintro r l2 (⟨x, rfl, hx, ht⟩ | ⟨e, rfl, ht, hnc⟩)
    · have hl := ht.length
      simp at hl
      refine Sat.tailVia ht (ih ht.good (by omega)) ?_
      rintro ws _ ⟨fs, os, ts, more, h1, h2⟩
      exact ⟨fs, os, x :: ts, more, .empty x _ _ _ hx h1, by simp [h2]⟩
    · refine Sat.via ht.took ((parseOneofElement_sat ht.good hnc).and' (parseOneofElement_via ht.good)) ?_ ?_
      · rintro ws _ (⟨x, ts, more, h1, h2⟩ | ⟨x, ts, more, h1, h2⟩)
        · exact ⟨_, _, ts, more, .lastOption x _ h1, by simpa using h2⟩
        · exact ⟨_, _, ts, more, .lastField x _ h1, by simpa using h2⟩
      intro el l3 h1
      have key : ∃ ts, (∀ ws, OneofOpens cfg.gram ws → OneofOpens cfg.gram (words ts ++ ws)) ∧ 0 < ts.length ∧
          Took l ts l3 := by
        cases el with
        | inl o =>
          obtain ⟨rfl, seg, t, h1, h2, h3, h4, h5⟩ := h1
          refine ⟨toks seg, ?_, ?_, by simpa [toks_append] using (ht.trans h4).took⟩
          · rintro ws ⟨fs, os, ts, more, h6, h7⟩
            exact ⟨_, _, _, more, .option _ _ _ _ _ h1 h6, by simp [h7]⟩
          · obtain ⟨t, js, rfl⟩ := h2; simp
        | inr o =>
          obtain ⟨rfl, seg, t, h1, h2, h3, h4, h5⟩ := h1
          refine ⟨toks seg, ?_, ?_, by simpa [toks_append] using (ht.trans h4).took⟩
          · rintro ws ⟨fs, os, ts, more, h6, h7⟩
            exact ⟨_, _, _, more, .field _ _ _ _ _ h1 h6, by simp [h7]⟩
          · obtain ⟨t, js, rfl⟩ := h2; simp
      obtain ⟨ts, hB, h0, ht⟩ := key
      have hl := ht.length
      cases el with
      | inl o =>
        simp only
        refine sat_next ht.good ?_
        rw [sat_tok]
        refine sat_ite (fun h => trivial) (fun h => ?_)
        refine sat_unNext ?_
        have ht := ht.nil_trans (took_putBack ht.good {})
        exact Sat.tailVia ht (ih ht.good (by show l3.scanner.inp.length < n; omega)) (fun ws _ => hB ws)
      | inr f =>
        simp only
        refine sat_next ht.good ?_
        rw [sat_tok]
        refine sat_ite (fun h => trivial) (fun h => ?_)
        refine sat_unNext ?_
        have ht := ht.nil_trans (took_putBack ht.good {})
        exact Sat.tailVia ht (ih ht.good (by show l3.scanner.inp.length < n; omega)) (fun ws _ => hB ws)

theorem opens_oneof {G : Gram} {nm : Str} {ws : List Str} (h1 : Word nm) (h2 : OneofOpens G ws)
    {vs rest : List Str} (h : [c!"oneof", nm, c!"{"] ++ ws = vs ++ rest) : Opens (OneofToks G) vs := by
  obtain ⟨fs, os, is, more, h3, h4⟩ := h2
  obtain ⟨hd, h5⟩ := toks_some [c!"oneof", nm, c!"{"]
  obtain ⟨cl, h6⟩ := toks_some [c!"}"]
  obtain ⟨info, h7⟩ := spans_some (ts := hd ++ is ++ cl) (by intro e; simp at e; simp [e.1] at h5)
  refine ⟨⟨fs, nm, os, [], none, none, info⟩, hd ++ is ++ cl, rest ++ more ++ [c!"}"], ⟨h1, hd, is, cl, h5, h3, .inl h6, rfl, h7⟩, ?_⟩
  simp only [words_append, h5, h6, h4, ← List.append_assoc] at h ⊢
  rw [h]

theorem parseOneof_via {H : Halt → Prop} {cfg : Cfg} {l : Lexer} (hg : Good l) :
    Sat H (fun _ _ => True) (FailV (!cfg.permissive) (Opens (OneofToks cfg.gram)) l) (parseOneof cfg l) := by
  unfold parseOneof
  refine expect_via (.with_ .kw) rfl (by simp) (by simp) (Took.refl hg) (?_) (fun x1 l1 g1 ht => ?_)
  · exact opens_oneof word_a oneofOpens_nil (by simp; rfl)
  rw [sat_position]
  refine expect_via .next rfl (by simp) (by simp) ht (?_) (fun x2 l2 g2 ht => ?_)
  · exact opens_oneof word_a oneofOpens_nil (by simp [g1.kw rfl]; rfl)
  have hw : Word x2.text := g2.reads.1
  rw [sat_txt]
  refine expect_via .next rfl (by simp) (by simp) ht (?_) (fun x3 l3 g3 ht => ?_)
  · exact opens_oneof hw oneofOpens_nil (by simp [g1.kw rfl]; rfl)
  refine step_inline ht (fun c l4 ht _ _ => ?_)
  rw [sat_bound]
  refine Sat.via ht ((oneofLoop_sat _ ht.good (by omega)).and' (oneofLoop_via _ ht.good (by omega))) ?_ ?_
  · intro _ ws h
    exact opens_oneof hw h (rest := []) (by simp [g1.kw rfl, g3.punct rfl])
  rintro ⟨fs, os⟩ l5 ⟨fs', os', us, y, e, h1, h2, h3, h5, h4⟩
  refine Sat.bind (blockLastPos_sat h4.good h2 h3 h5) ?_
  rintro q l6 ⟨tl, h6, hc⟩
  trivial

end Parser
end Verif
