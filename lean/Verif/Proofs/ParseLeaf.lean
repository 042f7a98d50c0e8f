import Verif.Proofs.ParseComment

/-!
# Statements without nesting: syntax.go, edition.go, package.go, import.go
-/

set_option backward.isDefEq.respectTransparency false
set_option backward.dsimp.instances true

namespace Verif
open Spec Scanner Lexer
open M (bind_ok run_get)

variable {sm : Bool}

theorem reads_kw {m : Mode} {t : Token} {w s : Str} (h : Reads m t w) (hs : spelling t = some s) :
    w = s := by
  cases t <;> simp only [spelling, reduceCtorEq, Option.some.injEq] at hs <;>
    simp only [Reads, spelling, punctuation, reduceCtorEq, Option.some.injEq, false_and, exists_false, or_false] at h <;>
    exact h.symm.trans hs

theorem reads_punct {m : Mode} {t : Token} {w : Str} {c : Char} (h : Reads m t w)
    (hs : punctuation t = some c) : w = [c] := by
  cases t <;> simp only [punctuation, reduceCtorEq, Option.some.injEq] at hs <;>
    simp only [Reads, spelling, punctuation, reduceCtorEq, Option.some.injEq, false_or] at h <;>
    (obtain ⟨d, h1, h2⟩ := h; rw [h2, ← h1, hs])

theorem Got.kw {m : Mode} {t : Token} {l l' : Lexer} {x : Tok} (h : Got m t l x l') {s : Str}
    (hs : spelling t = some s) : x.text = s := reads_kw h.reads hs
theorem Got.punct {m : Mode} {t : Token} {l l' : Lexer} {x : Tok} (h : Got m t l x l') {c : Char}
    (hs : punctuation t = some c) : x.text = [c] := reads_punct h.reads hs

theorem spans_mk {a b : Tok} {mid : List Tok} {info : Meta} (h1 : a.pos = info.pos)
    (h2 : b.pos = info.lastPos) : Spans (a :: mid ++ [b]) info :=
  ⟨⟨a, mid ++ [b], by simp, h1⟩, ⟨a :: mid, b, by simp, h2⟩⟩

/-- Reading a token that is not the end of the input. -/
theorem sat_nextTok {α : Type} {H : Halt → Prop} {Q : α → Lexer → Prop} {E : Err → Lexer → Prop}
    {nx : P Unit} {m : Mode} (hn : IsNext nx m)
    {f : Unit → P α} {l : Lexer} (hg : Good l)
    (h : ∀ l', l' = nextSt m l → Sat H Q E (f () l')) : Sat H Q E ((nx >>= f) l) := by
  show Sat H Q E (M.bind nx f l)
  unfold M.bind
  rw [hn.run hg]
  exact h _ rfl

namespace Parser

/-- At the end of the input nothing more can be read. -/
theorem eof_of_nil {l : Lexer} (h : l.scanner.inp = []) (m : Mode) : (nextSt m l).token = .eof := by
  simp only [nextSt, h]
  cases m; rfl

theorem got_not_nil {l l' : Lexer} {m : Mode} {t : Token} {x : Tok} (hg : Got m t l x l')
    (h : l.scanner.inp = []) (ht : t ≠ .eof) : False :=
  ht (hg.next.symm.trans (eof_of_nil h m))

theorem parseSyntax_sat {H : Halt → Prop} {l : Lexer} (hg : Good l) :
    Sat H (fun r l' => ∃ ts, Optional SyntaxToks r ts ∧ Took l ts l') (FailR sm l) (parseSyntax l) := by
  unfold parseSyntax
  refine sat_nextWith hg ?_
  rw [sat_tok]
  refine sat_ite (fun h => ?_) (fun h => ?_)
  · refine sat_unNext ?_
    exact ⟨[], .none, took_putBack hg _⟩
  have hk : (nextSt .kw l).token = .kSyntax := by simpa using h
  have ht := next_took hg (m := .kw) rfl (by rw [hk]; simp)
  have g1 := got_next (m := .kw) rfl hk (by simp) (by simp)
  generalize nextSt .kw l = l1 at ht g1
  generalize nextTok .kw l = x1 at ht g1
  rw [sat_position]
  refine step_expect .next rfl (by simp) (by simp) ht (fun x2 l2 g2 ht => ?_)
  refine step_expect .next rfl (by simp) (by simp) ht (fun x3 l3 g3 ht => ?_)
  rw [sat_txt]
  refine sat_next ht.good ?_
  rw [sat_txt]
  refine sat_ite (fun h3 => sat_unexpected rfl ht) (fun h3 => ?_)
  have hv : (nextSt {} l3).text = c!"proto2" ∨ (nextSt {} l3).text = c!"proto3" := by
    by_cases h4 : (nextSt {} l3).text = c!"proto3"
    · exact .inr h4
    · by_cases h5 : (nextSt {} l3).text = c!"proto2"
      · exact .inl h5
      · exact absurd ⟨h4, h5⟩ h3
  have hne : (nextSt {} l3).text ≠ [] := by rcases hv with h | h <;> rw [h] <;> simp
  have h5 := next_text (l := l3) (m := {}) rfl hne
  have hnf : (nextSt {} l3).token ≠ .eof := fun h => hne (eof_took ht.good (m := {}) rfl h).2.2
  have ht := ht.trans (next_took ht.good (m := {}) rfl hnf)
  generalize nextSt {} l3 = l4 at ht h5 hv
  generalize nextTok {} l3 = x4 at ht h5
  refine step_expect .next rfl (by simp) (by simp) ht (fun x5 l5 g5 ht => ?_)
  rw [sat_txt]
  refine step_expect .next rfl (by simp) (by simp) ht (fun x6 l6 g6 ht => ?_)
  rw [sat_position]
  refine ⟨_, .some _ (x1 :: [x2, x3, x4, x5] ++ [x6]) ?_, by simpa using ht⟩
  refine ⟨hv, _, _, g3.reads, g5.reads, by simp [g3.text, g5.text], ?_,
    spans_mk (by simp [g1.pos]) (by simp [g6.pos])⟩
  simp [g1.kw rfl, g2.punct rfl, g6.punct rfl, h5]

theorem parseEdition_sat {H : Halt → Prop} {l : Lexer} (hg : Good l) :
    Sat H (fun r l' => ∃ ts, Optional EditionToks r ts ∧ Took l ts l') (FailR sm l) (parseEdition l) := by
  unfold parseEdition
  refine sat_nextWith hg ?_
  rw [sat_tok]
  refine sat_ite (fun h => ?_) (fun h => ?_)
  · refine sat_unNext ?_
    exact ⟨[], .none, took_putBack hg _⟩
  have hk : (nextSt .kw l).token = .kEdition := by simpa using h
  have ht := next_took hg (m := .kw) rfl (by rw [hk]; simp)
  have g1 := got_next (m := .kw) rfl hk (by simp) (by simp)
  generalize nextSt .kw l = l1 at ht g1
  generalize nextTok .kw l = x1 at ht g1
  rw [sat_position]
  refine step_expect .next rfl (by simp) (by simp) ht (fun x2 l2 g2 ht => ?_)
  refine step_expect .next rfl (by simp) (by simp) ht (fun x3 l3 g3 ht => ?_)
  rw [sat_txt]
  refine step_expect (.with_ _) rfl (by simp) (by simp) ht (fun x4 l4 g4 ht => ?_)
  rw [sat_txt]
  refine step_expect .next rfl (by simp) (by simp) ht (fun x5 l5 g5 ht => ?_)
  rw [sat_txt]
  refine step_expect .next rfl (by simp) (by simp) ht (fun x6 l6 g6 ht => ?_)
  rw [sat_position]
  refine ⟨_, .some _ (x1 :: [x2, x3, x4, x5] ++ [x6]) ?_, by simpa using ht⟩
  refine ⟨by rw [← g4.text]; exact g4.reads, _, _, g3.reads, g5.reads,
    by simp [g3.text, g5.text], ?_,
    spans_mk (by simp [g1.pos]) (by simp [g6.pos])⟩
  simp [g1.kw rfl, g2.punct rfl, g6.punct rfl, g4.text]

theorem parsePackage_sat {H : Halt → Prop} {l : Lexer} (hg : Good l) :
    Sat H (fun r l' => ∃ ts, PackageToks r ts ∧ Took l ts l') (FailR sm l) (parsePackage l) := by
  unfold parsePackage
  refine step_expect (.with_ .kw) rfl (by simp) (by simp) (Took.refl hg) (fun x1 l1 g1 ht => ?_)
  rw [sat_position]
  refine Sat.stepR ht (orUnexpected_sat (readFullIdent_sat ht.good)) ?_
  rintro ⟨s, q⟩ l2 ⟨us, h1, h2, h3⟩
  have ht := ht.trans h2
  refine step_expect .next rfl (by simp) (by simp) ht (fun x5 l5 g5 ht => ?_)
  rw [sat_position]
  refine ⟨x1 :: us ++ [x5], ⟨_, h1, ?_, spans_mk (by simp [g1.pos]) (by simp [g5.pos])⟩,
    by simpa using ht⟩
  simp [g1.kw rfl, g5.punct rfl]

/-- A token that is not read as a string is none. -/
theorem next_not_str {l : Lexer} (ht : (nextSt .keywordOrStr l).token ≠ .strLit) :
    ¬ StrLit (nextTok .keywordOrStr l).text := by
  intro hs
  obtain ⟨g, cs, raw, rest, _, _, _, _, e5, h⟩ := lex_lexeme .keywordOrStr l.scanner.inp
  have e6 : (nextTok .keywordOrStr l).text = raw := e5
  rw [e6] at hs
  have hs' := hs
  obtain ⟨q, b, hq, _, hb⟩ := hs
  rcases h with ⟨_, h, _⟩ | ⟨_, _, _, h, _⟩
  · change Lexeme _ _ _ (nextSt .keywordOrStr l).token _ at h
    generalize (nextSt .keywordOrStr l).token = t at h ht
    generalize (lex .keywordOrStr l.scanner.inp).text = x at h
    cases h with
    | eof => simp at hb
    | word _ _ h =>
      cases h with
      | mk c w h =>
        simp only [List.cons_append, List.nil_append, List.cons.injEq] at hb
        obtain ⟨rfl, _⟩ := hb
        revert h
        unfold WordStart
        rcases hq with rfl | rfl <;> decide
    | str => exact ht rfl
    | int _ hm => exact absurd hm (by decide)
    | float _ hm => exact absurd hm (by decide)
    | comment _ _ hm => exact absurd hm (by decide)
    | punct => simp at hb
    | quote => simp at hb
    | other => simp at hb
  · cases h with
    | comment h =>
      rw [hb] at h
      simp at h
      rcases hq with rfl | rfl <;> simp at h
    | str _ _ _ _ h => exact h _ _ rfl hs'
    | number _ hm => exact absurd hm (by decide)

theorem parseImportModifier_sat {H : Halt → Prop} {E : Err → Lexer → Prop} {G : Gram}
    (hG : G.loose = true) {l : Lexer} (hg : Good l) :
    Sat H (fun r l' => ∃ ts, Modifier G r (words ts) ∧ Took l ts l') E
      (parseImportModifier l) := by
  unfold parseImportModifier
  refine sat_nextWith hg ?_
  rw [sat_tok]
  refine sat_ite (fun h => ?_) (fun h => ?_)
  · refine ⟨_, ?_, next_took hg rfl (by rw [h]; simp)⟩
    simp only [words_cons, words_nil, (got_next (m := .keywordOrStr) rfl h (by simp) (by simp)).kw rfl]
    exact .public
  refine sat_ite (fun h' => ?_) (fun h' => ?_)
  · refine ⟨_, ?_, next_took hg rfl (by rw [h']; simp)⟩
    simp only [words_cons, words_nil, (got_next (m := .keywordOrStr) rfl h' (by simp) (by simp)).kw rfl]
    exact .weak
  refine sat_ite (fun h2 => ?_) (fun h2 => ?_)
  · refine sat_unNext ?_
    exact ⟨[], .none, took_putBack hg _⟩
  by_cases he : (nextSt .keywordOrStr l).token = .eof
  · have := eof_took hg (m := .keywordOrStr) rfl he
    exact ⟨[], .none, this.1⟩
  · have ht := next_took hg (m := .keywordOrStr) rfl he
    refine ⟨[nextTok .keywordOrStr l], .junk _ hG ?_ ?_ (next_not_str h2), ht⟩
    · intro hx
      have hw : Word (nextTok .keywordOrStr l).text := by
        rw [hx]; exact .mk _ _ (by simp [WordStart, letters]) (by simp [WordChar, letters])
      have := (took_word ht hw (m := .keywordOrStr) rfl).1
      rw [hx] at this
      exact h this
    · intro hx
      have hw : Word (nextTok .keywordOrStr l).text := by
        rw [hx]; exact .mk _ _ (by simp [WordStart, letters]) (by simp [WordChar, letters])
      have := (took_word ht hw (m := .keywordOrStr) rfl).1
      rw [hx] at this
      exact h' this

theorem parseImport_sat {H : Halt → Prop} {G : Gram} (hG : G.loose = true) {l : Lexer} (hg : Good l) :
    Sat H (fun r l' => ∃ ts, ImportToks G r ts ∧ Took l ts l') (FailR sm l) (parseImport l) := by
  unfold parseImport
  refine step_expect (.with_ .kw) rfl (by simp) (by simp) (Took.refl hg) (fun x1 l1 g1 ht => ?_)
  rw [sat_position]
  refine Sat.bind (parseImportModifier_sat hG ht.good) ?_
  rintro q l2 ⟨us, h1, h2⟩
  have ht := ht.trans h2
  refine step_expect (.with_ _) rfl (by simp) (by simp) ht (fun x4 l4 g4 ht => ?_)
  rw [sat_txt]
  refine step_expect .next rfl (by simp) (by simp) ht (fun x5 l5 g5 ht => ?_)
  rw [sat_position]
  refine ⟨x1 :: (us ++ [x4]) ++ [x5], ⟨by rw [← g4.text]; exact g4.reads, _, h1, ?_,
    spans_mk (by simp [g1.pos]) (by simp [g5.pos])⟩, by simpa using ht⟩
  simp [g1.kw rfl, g5.punct rfl, g4.text]

end Parser
end Verif
