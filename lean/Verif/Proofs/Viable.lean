import Verif.Proofs.ParseProto

/-!
# Where errors are reported

After an error return, the tokens before each position that the error reports begin a statement.  `FailV sm B l e l'`
says that they satisfy `B`; the theorems `_via` show it for each statement, where `B` is `Opens R` for the relation `R`
of that statement.
-/

set_option backward.isDefEq.respectTransparency false
set_option backward.dsimp.instances true

namespace Verif
open Spec Scanner Lexer
open M (bind_ok run_get)

/-- The word lists that begin one of `R`. -/
def Opens {α : Type} (R : α → List Tok → Prop) (ws : List Str) : Prop :=
  ∃ x ts more, R x ts ∧ words ts = ws ++ more

/-- An error return; what stands before the positions it reports. -/
def FailV (sm : Bool) (B : List Str → Prop) (l : Lexer) (e : Err) (_ : Lexer) : Prop := ErrsAt sm B l e

section
variable {α β : Type} {sm : Bool} {B B1 : List Str → Prop} {H : Halt → Prop} {Q : α → Lexer → Prop}
variable {Q' : β → Lexer → Prop} {l0 l : Lexer} {ts : List Tok}

theorem ErrsAt.mono {e : Err} (h : ErrsAt sm B1 l e) (hB : ∀ ws, B1 ws → B ws) : ErrsAt sm B l e := by
  induction h with
  | single p s f hp =>
    obtain ⟨us, l2, g, r, cs, h1, h2, h3⟩ := hp
    exact .single p s f ⟨us, l2, g, r, cs, h1, hB _ h2, h3⟩
  | pair a b _ _ iha ihb => exact .pair a b iha ihb
  | first a b hs _ iha => exact .first a b hs iha

/-- The results of one, the errors of the other. -/
theorem Sat.and' {Q2 : α → Lexer → Prop} {E E2 : Err → Lexer → Prop} {r : Res Lexer Err α}
    (h : Sat H Q E r) (h' : Sat H Q2 E2 r) : Sat H Q E2 r := by
  cases r with
  | ok a l => exact h
  | err => exact h'
  | halt => exact h

theorem Sat.via {m : P α} {f : α → P β} (ht : Took l0 ts l) (h : Sat H Q (FailV sm B1 l) (m l))
    (hB : ∀ ws, (l.scanner.inp = [] → ws = []) → B1 ws → B (words ts ++ ws))
    (hf : ∀ a l', Q a l' → Sat H Q' (FailV sm B l0) (f a l')) : Sat H Q' (FailV sm B l0) ((m >>= f) l) :=
  Sat.bind' h (fun _ _ he => ErrsAt.trans ht he hB) hf

theorem Sat.viaC {m : P α} {f : α → P β} (ht : Took l0 ts l) (h : Sat H Q (FailC sm B1 l) (m l))
    (hB : ∀ ws, (l.scanner.inp = [] → ws = []) → B1 ws → B (words ts ++ ws))
    (hf : ∀ a l', Q a l' → Sat H Q' (FailV sm B l0) (f a l')) : Sat H Q' (FailV sm B l0) ((m >>= f) l) :=
  Sat.bind' h (fun _ _ he => ErrsAt.trans ht he.errs hB) hf

theorem Sat.tailVia {m : P α} (ht : Took l0 ts l) (h : Sat H Q (FailV sm B1 l) (m l))
    (hB : ∀ ws, (l.scanner.inp = [] → ws = []) → B1 ws → B (words ts ++ ws)) : Sat H Q (FailV sm B l0) (m l) :=
  h.mono (fun _ _ h => h) (fun _ _ he => ErrsAt.trans ht he hB)

theorem Sat.ofC {m : P α} (h : Sat H Q (FailC sm B l) (m l)) : Sat H Q (FailV sm B l) (m l) :=
  h.mono (fun _ _ h => h) (fun _ _ he => he.errs)

theorem unexpected_via {m : Mode} (ht : Took l0 ts l) {s : String} (hB : B (words ts)) :
    Sat H Q (FailV sm B l0) ((Parser.unexpected s : P α) (nextSt m l)) :=
  .single _ _ _ (before_next ht m hB)

theorem expect_via {nx : P Unit} {m : Mode} (hn : IsNext nx m) (hm : m.comment = false) {t : Token}
    {s : String} {f : Unit → P α} (h1 : t ≠ .eof) (h2 : t ≠ .illegal) (ht : Took l0 ts l) (hB : B (words ts))
    (h : ∀ x l', Got m t l x l' → Took l0 (ts ++ [x]) l' → Sat H Q (FailV sm B l0) (f () l')) :
    Sat H Q (FailV sm B l0) ((Parser.expect nx t s >>= f) l) := by
  show Sat H Q _ (M.bind (Parser.expect nx t s) f l)
  unfold M.bind
  have hr : Parser.expect nx t s l = if (nextSt m l).token = t then .ok () (nextSt m l) else
      (Parser.unexpected s : P Unit) (nextSt m l) := by
    unfold Parser.expect
    refine (bind_ok (hn.run ht.good)).trans ?_
    refine (bind_ok (run_tok _)).trans ?_
    by_cases h : (nextSt m l).token = t <;> simp [h] <;> rfl
  rw [hr]
  by_cases hk : (nextSt m l).token = t
  · simp only [hk, if_true]
    exact h _ _ (got_next hm hk h1 h2) (ht.trans (next_took ht.good hm (by rw [hk]; exact h1)))
  · simp only [hk, if_false]
    exact .single _ _ _ (before_next ht m hB)

end

variable {sm : Bool}

theorem spans_some {ts : List Tok} (h : ts ≠ []) : ∃ info, Spans ts info := by
  cases ts with
  | nil => exact absurd rfl h
  | cons t ts =>
    exact ⟨⟨t.pos, ((t :: ts).getLast (by simp)).pos⟩, ⟨_, _, rfl, rfl⟩,
      ⟨(t :: ts).dropLast, (t :: ts).getLast (by simp), (List.dropLast_concat_getLast _).symm, rfl⟩⟩

/-- Tokens with given spellings. -/
theorem toks_some (ws : List Str) : ∃ ts, words ts = ws :=
  ⟨ws.map (⟨·, {}⟩), by simp [words, Function.comp_def]⟩

theorem str_empty : StrLit c!"\"\"" := ⟨'"', [], .inr rfl, .nil, rfl⟩

namespace Parser

/-! ## Syntax, edition, package, import, option -/

theorem opens_syntax {v lq tq : Str} (h1 : v = c!"proto2" ∨ v = c!"proto3") (h2 : Quote lq) (h3 : Quote tq)
    {vs more : List Str} (h : [c!"syntax", c!"=", lq, v, tq, c!";"] = vs ++ more) : Opens SyntaxToks vs := by
  obtain ⟨ts, info, h4⟩ := written_some (ws := [c!"syntax", c!"=", lq, v, tq, c!";"]) (by simp)
  exact ⟨⟨v, lq ++ v ++ tq, [], none, info⟩, ts, more, ⟨h1, lq, tq, h2, h3, rfl, h4⟩, h4.1.trans h⟩

theorem quote_double : Quote c!"\"" := .inr rfl

theorem parseSyntax_via {H : Halt → Prop} {l : Lexer} (hg : Good l) :
    Sat H (fun _ _ => True) (FailV sm (Opens SyntaxToks) l) (parseSyntax l) := by
  unfold parseSyntax
  refine sat_nextWith hg ?_
  rw [sat_tok]
  refine sat_ite (fun h => ?_) (fun h => ?_)
  · refine sat_unNext ?_
    trivial
  have hk : (nextSt .kw l).token = .kSyntax := by simpa using h
  have ht := next_took hg (m := .kw) rfl (by rw [hk]; simp)
  have g1 := got_next (m := .kw) rfl hk (by simp) (by simp)
  generalize nextSt .kw l = l1 at ht g1
  generalize nextTok .kw l = x1 at ht g1
  rw [sat_position]
  refine expect_via .next rfl (by simp) (by simp) ht (?_) (fun x2 l2 g2 ht => ?_)
  · exact opens_syntax (.inl rfl) quote_double quote_double (by simp [g1.kw rfl]; rfl)
  refine expect_via .next rfl (by simp) (by simp) ht (?_) (fun x3 l3 g3 ht => ?_)
  · exact opens_syntax (.inl rfl) quote_double quote_double (by simp [g1.kw rfl, g2.punct rfl]; rfl)
  rw [sat_txt]
  refine sat_next ht.good ?_
  rw [sat_txt]
  refine sat_ite (fun h3 => unexpected_via ht (?_)) (fun h3 => ?_)
  · exact opens_syntax (.inl rfl) g3.reads quote_double (by simp [g1.kw rfl, g2.punct rfl]; rfl)
  have hv : (nextSt {} l3).text = c!"proto2" ∨ (nextSt {} l3).text = c!"proto3" := by
    by_cases h4 : (nextSt {} l3).text = c!"proto3"
    · exact .inr h4
    · by_cases h5 : (nextSt {} l3).text = c!"proto2"
      · exact .inl h5
      · exact absurd ⟨h4, h5⟩ h3
  have hne : (nextSt {} l3).text ≠ [] := by rcases hv with h | h <;> rw [h] <;> simp
  have h5 := next_text (l := l3) (m := {}) rfl hne
  have hnf : (nextSt {} l3).token ≠ .eof := fun h => hne (eof_took ht.good (m := {}) rfl h).2.2
  have ht := ht.trans (next_took ht.good (m := {}) rfl hnf)
  generalize nextSt {} l3 = l4 at ht h5 hv
  generalize nextTok {} l3 = x4 at ht h5
  refine expect_via .next rfl (by simp) (by simp) ht (?_) (fun x5 l5 g5 ht => ?_)
  · exact opens_syntax hv g3.reads quote_double (by simp [g1.kw rfl, g2.punct rfl, h5]; rfl)
  rw [sat_txt]
  refine expect_via .next rfl (by simp) (by simp) ht (?_) (fun x6 l6 g6 ht => ?_)
  · exact opens_syntax hv g3.reads g5.reads (by simp [g1.kw rfl, g2.punct rfl, h5]; rfl)
  rw [sat_position]
  trivial

theorem opens_edition {v lq tq : Str} (h1 : IntLit v) (h2 : Quote lq) (h3 : Quote tq)
    {vs more : List Str} (h : [c!"edition", c!"=", lq, v, tq, c!";"] = vs ++ more) : Opens EditionToks vs := by
  obtain ⟨ts, info, h4⟩ := written_some (ws := [c!"edition", c!"=", lq, v, tq, c!";"]) (by simp)
  exact ⟨⟨v, lq ++ v ++ tq, [], none, info⟩, ts, more, ⟨h1, lq, tq, h2, h3, rfl, h4⟩, h4.1.trans h⟩

theorem parseEdition_via {H : Halt → Prop} {l : Lexer} (hg : Good l) :
    Sat H (fun _ _ => True) (FailV sm (Opens EditionToks) l) (parseEdition l) := by
  unfold parseEdition
  refine sat_nextWith hg ?_
  rw [sat_tok]
  refine sat_ite (fun h => ?_) (fun h => ?_)
  · refine sat_unNext ?_
    trivial
  have hk : (nextSt .kw l).token = .kEdition := by simpa using h
  have ht := next_took hg (m := .kw) rfl (by rw [hk]; simp)
  have g1 := got_next (m := .kw) rfl hk (by simp) (by simp)
  generalize nextSt .kw l = l1 at ht g1
  generalize nextTok .kw l = x1 at ht g1
  rw [sat_position]
  refine expect_via .next rfl (by simp) (by simp) ht (?_) (fun x2 l2 g2 ht => ?_)
  · exact opens_edition int_one quote_double quote_double (by simp [g1.kw rfl]; rfl)
  refine expect_via .next rfl (by simp) (by simp) ht (?_) (fun x3 l3 g3 ht => ?_)
  · exact opens_edition int_one quote_double quote_double (by simp [g1.kw rfl, g2.punct rfl]; rfl)
  rw [sat_txt]
  refine expect_via (.with_ _) rfl (by simp) (by simp) ht (?_) (fun x4 l4 g4 ht => ?_)
  · exact opens_edition int_one g3.reads quote_double (by simp [g1.kw rfl, g2.punct rfl]; rfl)
  rw [sat_txt]
  refine expect_via .next rfl (by simp) (by simp) ht (?_) (fun x5 l5 g5 ht => ?_)
  · exact opens_edition g4.reads g3.reads quote_double (by simp [g1.kw rfl, g2.punct rfl]; rfl)
  rw [sat_txt]
  refine expect_via .next rfl (by simp) (by simp) ht (?_) (fun x6 l6 g6 ht => ?_)
  · exact opens_edition g4.reads g3.reads g5.reads (by simp [g1.kw rfl, g2.punct rfl]; rfl)
  rw [sat_position]
  trivial

theorem opens_package {s : Str} {ws : List Str} (h1 : FullIdent s ws)
    {vs more : List Str} (h : c!"package" :: ws ++ [c!";"] = vs ++ more) : Opens PackageToks vs := by
  obtain ⟨ts, info, h4⟩ := written_some (ws := c!"package" :: ws ++ [c!";"]) (by simp)
  exact ⟨⟨s, [], none, info⟩, ts, more, ⟨ws, h1, h4⟩, h4.1.trans h⟩

theorem fullIdent_a : FullIdent c!"a" [c!"a"] := .one _ word_a

theorem parsePackage_via {H : Halt → Prop} {l : Lexer} (hg : Good l) :
    Sat H (fun _ _ => True) (FailV sm (Opens PackageToks) l) (parsePackage l) := by
  unfold parsePackage
  refine expect_via (.with_ .kw) rfl (by simp) (by simp) (Took.refl hg) (?_) (fun x1 l1 g1 ht => ?_)
  · exact opens_package fullIdent_a (by simp; rfl)
  rw [sat_position]
  refine Sat.viaC ht (orUnexpected_cut (readFullIdent_cut ht.good)) ?_ ?_
  · rintro ws _ ⟨s, more, hs⟩
    exact opens_package hs (more := more ++ [c!";"]) (by simp [g1.kw rfl])
  rintro ⟨s, q⟩ l2 ⟨us, h1, h2, h3⟩
  have ht := ht.trans h2
  refine expect_via .next rfl (by simp) (by simp) ht (?_) (fun x5 l5 g5 ht => ?_)
  · exact opens_package h1 (by simp [g1.kw rfl]; rfl)
  rw [sat_position]
  trivial

theorem opens_import {G : Gram} {w : Str} {m : ImportModifier} {ms : List Str} (h1 : StrLit w) (h2 : Modifier G m ms)
    {vs more : List Str} (h : c!"import" :: ms ++ [w, c!";"] = vs ++ more) : Opens (ImportToks G) vs := by
  obtain ⟨ts, info, h4⟩ := written_some (ws := c!"import" :: ms ++ [w, c!";"]) (by simp)
  exact ⟨⟨m, w, [], none, info⟩, ts, more, ⟨h1, ms, h2, h4⟩, h4.1.trans h⟩

theorem parseImport_via {H : Halt → Prop} {G : Gram} (hG : G.loose = true) {l : Lexer} (hg : Good l) :
    Sat H (fun _ _ => True) (FailV sm (Opens (ImportToks G)) l) (parseImport l) := by
  unfold parseImport
  refine expect_via (.with_ .kw) rfl (by simp) (by simp) (Took.refl hg) (?_) (fun x1 l1 g1 ht => ?_)
  · exact opens_import str_empty .none (by simp; rfl)
  rw [sat_position]
  refine Sat.bind (parseImportModifier_sat hG ht.good) ?_
  rintro q l2 ⟨us, h1, h2⟩
  have ht := ht.trans h2
  refine expect_via (.with_ _) rfl (by simp) (by simp) ht ?_ (fun x4 l4 g4 ht => ?_)
  · exact opens_import str_empty h1 (by simp [g1.kw rfl]; rfl)
  rw [sat_txt]
  refine expect_via .next rfl (by simp) (by simp) ht (?_) (fun x5 l5 g5 ht => ?_)
  · exact opens_import g4.reads h1 (by simp [g1.kw rfl]; rfl)
  rw [sat_position]
  trivial

theorem opens_option {G : Gram} {s c : Str} {ns cs : List Str} (h1 : OptionName G s ns) (h2 : Constant G c cs)
    {vs more : List Str} (h : c!"option" :: ns ++ c!"=" :: cs ++ [c!";"] = vs ++ more) : Opens (OptionToks G) vs := by
  obtain ⟨ts, info, h4⟩ := written_some (ws := c!"option" :: ns ++ c!"=" :: cs ++ [c!";"]) (by simp)
  exact ⟨⟨s, c, [], none, info⟩, ts, more, ⟨ns, cs, h1, h2, h4⟩, h4.1.trans h⟩

theorem optionName_a {G : Gram} : OptionName G c!"a" [c!"a"] := .one _ _ (.ident _ word_a)
theorem constant_one {G : Gram} : Constant G c!"1" [c!"1"] := .number _ (.inl int_one)

theorem parseOption_via {H : Halt → Prop} {cfg : Cfg} {l : Lexer} (hg : Good l) :
    Sat H (fun _ _ => True) (FailV (!cfg.permissive) (Opens (OptionToks cfg.gram)) l) (parseOption cfg l) := by
  unfold parseOption
  refine expect_via (.with_ .kw) rfl (by simp) (by simp) (Took.refl hg) (?_) (fun x1 l1 g1 ht => ?_)
  · exact opens_option optionName_a constant_one (by simp; rfl)
  rw [sat_position]
  refine Sat.viaC ht (parseOptionName_cut ht.good) ?_ ?_
  · rintro ws _ ⟨s, more, hs⟩
    exact opens_option hs constant_one (more := more ++ [c!"=", c!"1", c!";"]) (by simp [g1.kw rfl])
  rintro s l2 ⟨us, h1, h2⟩
  have ht := ht.trans h2
  refine expect_via .next rfl (by simp) (by simp) ht (?_) (fun x3 l3 g3 ht => ?_)
  · exact opens_option h1 constant_one (more := [c!"=", c!"1", c!";"]) (by simp [g1.kw rfl])
  refine Sat.viaC ht (parseOptionConstant_cut ht.good) ?_ ?_
  · rintro ws _ ⟨s, more, hs⟩
    exact opens_option h1 hs (more := more ++ [c!";"]) (by simp [g1.kw rfl, g3.punct rfl])
  rintro c l4 ⟨vs, h3, h4⟩
  have ht := ht.trans h4
  refine expect_via .next rfl (by simp) (by simp) ht ?_ (fun x5 l5 g5 ht => ?_)
  · obtain ⟨s', more, hs⟩ := h3.begins
    exact opens_option h1 hs (more := more ++ [c!";"]) (by simp [g1.kw rfl, g3.punct rfl])
  rw [sat_position]
  trivial

end Parser
end Verif
