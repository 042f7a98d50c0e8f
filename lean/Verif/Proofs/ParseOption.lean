import Verif.Proofs.ParseLeaf

/-!
# Option names and constants: option.go
-/

set_option backward.isDefEq.respectTransparency false
set_option backward.dsimp.instances true

namespace Verif
open Spec Scanner Lexer
open M (bind_ok run_get)

/-- The grammar that a configuration accepts. -/
def Cfg.gram (cfg : Cfg) : Gram := ⟨cfg.permissive, true, true⟩

namespace Parser

theorem optionNameDot_sat {H : Halt → Prop} {E : Err → Lexer → Prop} {cfg : Cfg} {l : Lexer}
    (hg : Good l) :
    Sat H (fun r l' => ∃ ts, ((r = [] ∧ ts = []) ∨
        (cfg.permissive = true ∧ r = c!"." ∧ words ts = [c!"."])) ∧ Took l ts l')
      E (optionNameDot cfg l) := by
  unfold optionNameDot
  refine sat_ite (fun hp => ?_) (fun _ => ⟨[], .inl ⟨rfl, rfl⟩, Took.refl hg⟩)
  refine sat_next hg ?_
  rw [sat_tok]
  refine sat_ite (fun h => ?_) (fun h => ?_)
  · refine ⟨_, .inr ⟨hp, rfl, ?_⟩, next_took hg rfl (by rw [h]; simp)⟩
    simp [(got_next (m := {}) rfl h (by simp) (by simp)).punct rfl]
  · refine sat_unNext ?_
    exact ⟨[], .inl ⟨rfl, rfl⟩, took_putBack hg _⟩

/-- One part of a name, whose first token was read last. -/
theorem optionNamePart_cut {H : Halt → Prop} {cfg : Cfg} {s : String} {l : Lexer} (hg : Good l) :
    Sat H (fun r l' => ∃ us, NamePart cfg.gram r (words us) ∧ Took l us l')
      (FailC (!cfg.permissive) (Begins (NamePart cfg.gram)) l) (optionNamePart cfg s (nextSt {} l)) := by
  have ht := Took.refl hg
  unfold optionNamePart
  rw [sat_tok, sat_txt]
  refine sat_ite (fun h => ?_) (fun h => ?_)
  · have g := got_next (m := {}) rfl h (by simp) (by simp)
    refine ⟨[nextTok {} l], ?_, next_took hg rfl (by rw [h]; simp)⟩
    simp only [words_cons, words_nil, ← g.text]
    exact .ident _ g.reads.1
  refine sat_ite (fun h1 => ?_) (fun h1 => unexpected_cut rfl ht (⟨_, _, .ident _ word_a⟩))
  have g := got_next (m := {}) rfl h1 (by simp) (by simp)
  have ht := next_took hg (m := {}) rfl (by rw [h1]; simp)
  generalize nextSt {} l = l1 at ht g
  generalize nextTok {} l = x1 at ht g
  refine Sat.bind (optionNameDot_sat ht.good) ?_
  rintro r l2 ⟨us, h2, h3⟩
  have ht := ht.trans h3
  have hB : ∀ f ws, FullIdent f ws → ∃ s, NamePart cfg.gram s (words ([x1] ++ us) ++ ws ++ [c!")"]) := by
    intro f ws hf
    rcases h2 with ⟨rfl, rfl⟩ | ⟨hp, rfl, h2⟩
    · exact ⟨_, by simpa [g.punct rfl] using NamePart.paren (G := cfg.gram) f _ hf⟩
    · exact ⟨_, by simpa [g.punct rfl, h2] using NamePart.dotted (G := cfg.gram) f _ hp hf⟩
  refine Sat.cut ht (readFullIdent_cut ht.good) ?_ ?_
  · rintro ws _ ⟨f, more, hf⟩
    obtain ⟨s, hs⟩ := hB _ _ hf
    exact ⟨s, more ++ [c!")"], by simpa using hs⟩
  rintro ⟨f, q⟩ l3 ⟨vs, h4, h5, _⟩
  have ht := ht.trans h5
  refine expect_cut .next rfl (by simp) (by simp) ht (?_) (fun x5 l5 g5 ht => ?_)
  · obtain ⟨s, hs⟩ := hB _ _ h4
    exact ⟨s, [c!")"], by simpa using hs⟩
  rw [sat_txt]
  refine ⟨x1 :: us ++ vs ++ [x5], ?_, by simpa using ht⟩
  show NamePart cfg.gram (l1.text ++ r ++ f ++ l5.text) _
  rw [← g.text, ← g5.text]
  rcases h2 with ⟨rfl, rfl⟩ | ⟨hp, rfl, h2⟩
  · simpa [g.punct rfl, g5.punct rfl] using NamePart.paren (G := cfg.gram) f _ h4
  · simpa [g.punct rfl, g5.punct rfl, h2] using NamePart.dotted (G := cfg.gram) f _ hp h4

/-- `{ "." part }` -/
inductive NameTail (G : Gram) : Str → List Str → Prop
  | nil : NameTail G [] []
  | cons (s : Str) (ws : List Str) (s' : Str) (ws' : List Str) : NamePart G s ws → NameTail G s' ws' →
      NameTail G (c!"." ++ s ++ s') (c!"." :: ws ++ ws')

theorem optionName_of_tail {G : Gram} {s s' : Str} {ws ws' : List Str} (h : OptionName G s ws)
    (h' : NameTail G s' ws') : OptionName G (s ++ s') (ws ++ ws') := by
  induction h' generalizing s ws with
  | nil => simpa using h
  | cons a as b bs ha _ ih => simpa using ih (.more s ws a as h ha)

theorem optionNameLoop_cut {H : Halt → Prop} {cfg : Cfg} (n : Nat) :
    ∀ {l : Lexer} {acc : Str}, Good l → l.scanner.inp.length < n →
    Sat H (fun r l' => ∃ s us, r = acc ++ s ∧ NameTail cfg.gram s (words us) ∧ Took l us l')
      (FailC (!cfg.permissive) (Begins (NameTail cfg.gram)) l) (optionNameLoop cfg n acc l) := by
  induction n with
  | zero => intro _ _ _ h; omega
  | succ n ih =>
    intro l acc hg hn
    unfold optionNameLoop
    refine sat_next hg ?_
    rw [sat_tok]
    refine sat_ite (fun h => ?_) (fun h => ?_)
    · refine sat_unNext ?_
      exact ⟨[], [], by simp, .nil, took_putBack hg _⟩
    have hk : (nextSt {} l).token = .dot := by simpa using h
    have g := got_next (m := {}) rfl hk (by simp) (by simp)
    have ht := next_took hg (m := {}) rfl (by rw [hk]; simp)
    rw [sat_txt]
    generalize nextSt {} l = l1 at ht g
    generalize nextTok {} l = x1 at ht g
    refine sat_next ht.good ?_
    refine Sat.bind' (optionNamePart_cut ht.good) (fun _ _ he => he.trans ht ?_) ?_
    · rintro ws _ ⟨s, more, hs⟩
      exact ⟨_, more, by simpa [g.punct rfl] using NameTail.cons _ _ _ _ hs .nil⟩
    rintro r l2 ⟨us, h1, h2⟩
    have ht := ht.trans h2
    have hl := ht.length
    simp at hl
    refine (Sat.tailCut ht (ih ht.good (by omega)) ?_).mono ?_ (fun _ _ h => h)
    · rintro ws _ ⟨s, more, hs⟩
      exact ⟨_, more, by simpa [g.punct rfl] using NameTail.cons _ _ _ _ h1 hs⟩
    rintro r' l' ⟨s, vs, rfl, h3, h4⟩
    refine ⟨l1.text ++ r ++ s, x1 :: us ++ vs, by simp, ?_, by simpa using ht.trans h4⟩
    rw [← g.text]
    simpa [g.punct rfl] using NameTail.cons _ _ _ _ h1 h3

theorem parseOptionName_cut {H : Halt → Prop} {cfg : Cfg} {l : Lexer} (hg : Good l) :
    Sat H (fun r l' => ∃ ts, OptionName cfg.gram r (words ts) ∧ Took l ts l')
      (FailC (!cfg.permissive) (Begins (OptionName cfg.gram)) l) (parseOptionName cfg l) := by
  unfold parseOptionName
  refine sat_next hg ?_
  refine Sat.bind' (optionNamePart_cut hg) (fun _ _ he => he.trans (Took.refl hg) ?_) ?_
  · rintro ws _ ⟨s, more, hs⟩
    exact ⟨_, more, .one _ _ hs⟩
  rintro r l2 ⟨us, h1, h2⟩
  rw [sat_bound]
  refine (Sat.tailCut h2 (optionNameLoop_cut _ h2.good (by omega)) ?_).mono ?_ (fun _ _ h => h)
  · rintro ws _ ⟨s, more, hs⟩
    exact ⟨_, more, by rw [List.append_assoc]; exact optionName_of_tail (.one _ _ h1) hs⟩
  rintro r' l' ⟨s, vs, rfl, h3, h4⟩
  refine ⟨us ++ vs, ?_, h2.trans h4⟩
  rw [words_append]
  exact optionName_of_tail (.one _ _ h1) h3

theorem parseOptionName_sat {H : Halt → Prop} {cfg : Cfg} {l : Lexer} (hg : Good l) :
    Sat H (fun r l' => ∃ ts, OptionName cfg.gram r (words ts) ∧ Took l ts l')
      (FailR (!cfg.permissive) l) (parseOptionName cfg l) := (parseOptionName_cut hg).toR

/-! ## Constants -/

/-- What is known about a function that reads a constant: that it has read one, or the beginning of one if the input ends there. -/
def ConstOK (H : Halt → Prop) (G : Gram) (d : Nat) (constant : P Str) : Prop :=
  ∀ {l : Lexer}, Good l → l.scanner.inp.length < d →
    Sat H (fun r l' => ∃ ts, Partly (Constant G) r l' (words ts) ∧ Took l ts l' ∧
        ((nextSt {} l).token = .leftCurly → (words ts).head? = some c!"{"))
      (FailC (!G.permissive) (fun ws => Begins (Constant G) ws ∧
        ((nextSt {} l).token = .leftCurly → ws = [] ∨ ws.head? = some c!"{")) l) (constant l)

theorem began_constant (G : Gram) : Begins (Constant G) [] := ⟨_, _, .number _ (.inl int_one)⟩

/-- `[ ":" ]`: the text, whether the constant must start with a brace, and the tokens. -/
theorem cloudSeparator_cut {H : Halt → Prop} {cfg : Cfg} {l : Lexer} (hg : Good l) :
    Sat H (fun r l' => ∃ ts, Took l ts l' ∧
        ((r = ([], false) ∧ ts = [] ∧ (nextSt {} l').token = .leftCurly) ∨
          (r.1 = c!":" ∧ words ts = [c!":"] ∧
            (r.2 = true ↔ (nextSt {} l').token = .leftCurly ∧ cfg.permissive = true))))
      (FailC (!cfg.permissive) (· = []) l) (cloudSeparator cfg l) := by
  unfold cloudSeparator
  refine sat_next hg ?_
  rw [sat_tok]
  refine sat_ite (fun h => ?_) (fun h => ?_)
  · refine sat_ite (fun hp => unexpected_cut rfl (Took.refl hg) (rfl)) (fun hp => ?_)
    refine sat_unNext ?_
    exact ⟨[], took_putBack hg _, .inl ⟨rfl, rfl, h⟩⟩
  refine sat_ite (fun h1 => ?_) (fun h1 => ?_)
  · have g := got_next (m := {}) rfl h1 (by simp) (by simp)
    have ht := next_took hg (m := {}) rfl (by rw [h1]; simp)
    generalize nextSt {} l = l1 at ht g
    generalize nextTok {} l = x1 at ht g
    rw [sat_txt]
    refine sat_peek ht.good ?_
    refine ⟨[x1], ht.nil_trans (took_putBack ht.good _), .inr ⟨?_, ?_, ?_⟩⟩
    · show l1.text = _
      rw [← g.text]; exact g.punct rfl
    · simp [g.punct rfl]
    · show (decide ((nextSt {} l1).token = .leftCurly) && cfg.permissive) = true ↔
        (nextSt {} l1).token = .leftCurly ∧ cfg.permissive = true
      simp
  · exact sat_ite (fun _ => unexpected_cut rfl (Took.refl hg) (rfl))
      (fun _ => unexpected_cut rfl (Took.refl hg) (rfl))

/-- `[ ";" ]` and the token after it, which is read but not counted. -/
theorem cloudNeedSemi_sat {H : Halt → Prop} {E : Err → Lexer → Prop} {cfg : Cfg} {b : Bool} {l : Lexer}
    (hg : Good l) :
    Sat H (fun r l' => ∃ ts l1, Took l ts l1 ∧ l' = nextSt {} l1 ∧
        ((r = [] ∧ ts = [] ∧ ((nextSt {} l1).token = .semicolon → b = true → cfg.permissive = false)) ∨
          (r = c!";" ∧ words ts = [c!";"] ∧ b = true)))
      E (cloudNeedSemi cfg b l) := by
  unfold cloudNeedSemi
  refine sat_next hg ?_
  rw [sat_tok]
  refine sat_ite (fun h => ?_) (fun h => ?_)
  · have g := got_next (m := {}) rfl h.1 (by simp) (by simp)
    have ht := next_took hg (m := {}) rfl (by rw [h.1]; simp)
    generalize nextSt {} l = l1 at ht g
    generalize nextTok {} l = x1 at ht g
    rw [sat_txt]
    refine sat_next ht.good ?_
    refine ⟨[x1], l1, ht, rfl, .inr ⟨?_, ?_, h.2.1⟩⟩
    · show l1.text = _
      rw [← g.text]; exact g.punct rfl
    · simp [g.punct rfl]
  · refine ⟨[], l, Took.refl hg, rfl, .inl ⟨rfl, rfl, fun h1 h2 => ?_⟩⟩
    cases hp : cfg.permissive with
    | false => rfl
    | true => exact absurd ⟨h1, h2, hp⟩ h

/-- A token that is a given rune is read as such. -/
theorem took_token {l l' : Lexer} {ts : List Tok} (ht : Took l ts l') {c : Char} {t : Token}
    (hc : isSpace c = false) (h1 : c ≠ '/') (h2 : ∀ x, (tokenAt {} (c :: x)).token = t)
    (h : (words ts).head? = some [c]) : (nextSt {} l).token = t := by
  obtain ⟨_, ⟨y, e, _, hl, _⟩, _⟩ := ht
  cases hl with
  | nil => simp [words] at h
  | cons g cs w ts d hg hw hs hx hl =>
    have hw : w = [c] := by simpa [words] using h
    subst hw
    show (lex {} l.scanner.inp).token = t
    have := lex_gap (m := {}) (rest := [c] ++ (d ++ l'.scanner.inp)) (g := g) (cs := cs) hg
    rw [e, show g ++ ([c] ++ d) ++ l'.scanner.inp = g ++ ([c] ++ (d ++ l'.scanner.inp)) by simp, this]
    show (lex {} (c :: (d ++ l'.scanner.inp))).token = t
    rw [lex_token (by simpa using hc) (by simpa using h1)]
    exact h2 _

/-- The separator or the closing brace, the token having been read. -/
theorem cloudClose_sat {H : Halt → Prop} {E : Err → Lexer → Prop} {cfg : Cfg} {l : Lexer}
    (hg : Good l) :
    Sat H (fun r l' => ∃ ts, Took l ts l' ∧
        ((r = (c!"}", true) ∧ words ts = [c!"}"]) ∨
          (∃ s, (s = c!"," ∨ (s = c!";" ∧ (nextSt {} l).token = .semicolon)) ∧
            r = (s ++ c!"}", true) ∧ words ts = [s, c!"}"]) ∨
          (∃ s, (s = c!"," ∨ (s = c!";" ∧ (nextSt {} l).token = .semicolon)) ∧ r = (s, false) ∧
            words ts = [s]) ∨
          (r = (c!"\n", false) ∧ words ts = [])))
      E (cloudClose cfg (nextSt {} l)) := by
  unfold cloudClose
  rw [sat_tok]
  refine sat_ite (fun h => ?_) (fun h => ?_)
  · have ht := next_took hg (m := {}) rfl (by rcases h with h | h <;> rw [h] <;> simp)
    have hs : (nextTok {} l).text = (nextSt {} l).text ∧
        ((nextTok {} l).text = c!"," ∨ ((nextTok {} l).text = c!";" ∧ (nextSt {} l).token = .semicolon)) := by
      rcases h with h | h
      · have g := got_next (m := {}) rfl h (by simp) (by simp)
        exact ⟨g.text, .inl (g.punct rfl)⟩
      · have g := got_next (m := {}) rfl h (by simp) (by simp)
        exact ⟨g.text, .inr ⟨g.punct rfl, h⟩⟩
    obtain ⟨hs1, hs2⟩ := hs
    generalize hst : (nextSt {} l).token = st at hs2 ⊢
    clear hst h
    generalize nextSt {} l = l1 at ht hs1
    generalize nextTok {} l = x1 at ht hs1 hs2
    rw [sat_txt]
    refine sat_peek ht.good ?_
    refine sat_ite (fun h1 => ?_) (fun h1 => ?_)
    · have h1' : (nextSt {} (putBack {} l1)).token = .rightCurly := h1.1
      have ht := ht.nil_trans (took_putBack ht.good {})
      refine sat_next ht.good ?_
      rw [sat_txt]
      have g := got_next (m := {}) rfl h1' (by simp) (by simp)
      have ht := ht.trans (next_took ht.good (m := {}) rfl (by rw [h1']; simp))
      refine ⟨_, ht, .inr (.inl ⟨x1.text, hs2, ?_, ?_⟩)⟩
      · rw [← hs1, ← g.text, g.punct rfl]
      · simp [g.punct rfl]
    · exact ⟨[x1], ht.nil_trans (took_putBack ht.good _), .inr (.inr (.inl ⟨x1.text, hs2, by rw [← hs1], rfl⟩))⟩
  refine sat_ite (fun h1 => ?_) (fun h1 => ?_)
  · have g := got_next (m := {}) rfl h1 (by simp) (by simp)
    have ht := next_took hg (m := {}) rfl (by rw [h1]; simp)
    rw [sat_txt]
    refine ⟨_, ht, .inl ⟨?_, ?_⟩⟩
    · rw [← g.text, g.punct rfl]
    · simp [g.punct rfl]
  · refine sat_unNext ?_
    exact ⟨[], took_putBack hg _, .inr (.inr (.inr ⟨rfl, rfl⟩))⟩

theorem entries_ne {G : Gram} {s : Str} {ws : List Str} (h : Entries G s ws) : ws ≠ [] := by
  have key : ∀ {b s ws}, Entry G b s ws → ws ≠ [] := by
    intro b s ws h
    cases h <;> simp
  cases h with
  | last b _ _ h => simp
  | lastSep b _ _ _ h => simp
  | sep b _ _ _ _ _ h => simp
  | blank b _ _ _ _ h => have := key h; simp [this]

theorem cloudLoop_cut {H : Halt → Prop} {cfg : Cfg} {d : Nat} {constant : P Str}
    (hp : cfg.permissive = true) (hc : ConstOK H cfg.gram d constant) (n : Nat) :
    ∀ {l : Lexer} {acc : Str}, Good l → l.scanner.inp.length < n → l.scanner.inp.length < d →
    Sat H (fun r l' => ∃ s us, r = acc ++ s ∧ Entries cfg.gram s (words us) ∧ Took l us l')
      (FailC (!cfg.permissive) (Begins (Entries cfg.gram)) l) (cloudLoop cfg constant n acc l) := by
  induction n with
  | zero => intro _ _ _ h; omega
  | succ n ih =>
    intro l acc hg hn hd
    unfold cloudLoop
    have hone : ∀ w, Word w → Entries cfg.gram (w ++ c!":" ++ c!"1" ++ c!"}") [w, c!":", c!"1", c!"}"] := fun w hw =>
      .last _ _ _ (.colon w _ _ hw (.number _ (.inl int_one)))
    refine expect_cut .next rfl (by simp) (by simp) (Took.refl hg) (⟨_, _, hone _ word_a⟩) (fun x1 l1 g1 ht => ?_)
    rw [sat_txt]
    have hw : Word x1.text := g1.reads.1
    refine Sat.cut ht (cloudSeparator_cut ht.good) ?_ ?_
    · rintro ws _ rfl
      exact ⟨_, [c!":", c!"1", c!"}"], hone _ hw⟩
    rintro ⟨sep, needSemi⟩ l2 ⟨ts2, t2, h2⟩
    have ht := ht.trans t2
    have hl := ht.length
    simp at hl
    refine Sat.cut ht (hc ht.good (by omega)) ?_ ?_
    · rintro ws _ ⟨⟨s, more, hs⟩, h3⟩
      rcases h2 with ⟨_, rfl, k2⟩ | ⟨_, w2, _⟩
      · rcases h3 k2 with rfl | h3
        · exact ⟨_, [c!"{", c!"}", c!"}"], by simpa using Entries.last _ _ _ (.brace _ _ _ hw (.emptyMsg hp) rfl)⟩
        · have h4 : (ws ++ more).head? = some c!"{" := by
            cases ws with
            | nil => simp at h3
            | cons w ws => simpa using h3
          exact ⟨_, more ++ [c!"}"], by simpa using Entries.last _ _ _ (.brace _ _ _ hw hs h4)⟩
      · exact ⟨_, more ++ [c!"}"], by simpa [w2] using Entries.last _ _ _ (.colon _ _ _ hw hs)⟩
    rintro c l3 ⟨ts3, h3, t3, h4⟩
    have ht := ht.trans t3
    refine Sat.bind (cloudNeedSemi_sat ht.good) ?_
    rintro semi l4 ⟨ts5, l5, t5, rfl, h5⟩
    have ht := ht.trans t5
    refine Sat.bind (cloudClose_sat t5.good) ?_
    rintro ⟨cl, done⟩ l6 ⟨ts6, t6, h6⟩
    have ht := ht.trans t6
    have hl := ht.length
    simp only [List.length_append, List.length_nil, List.length_singleton] at hl
    have he' : Constant cfg.gram c (words ts3) →
        ∃ b, Entry cfg.gram b (x1.text ++ sep ++ c ++ semi) (words ([x1] ++ ts2 ++ ts3 ++ ts5)) ∧
        ((nextSt {} l5).token = .semicolon → b = false) := by
      intro h3
      rcases h2 with ⟨e2, rfl, k2⟩ | ⟨e2, w2, k2⟩
      · simp only [Prod.mk.injEq] at e2
        obtain ⟨rfl, rfl⟩ := e2
        rcases h5 with ⟨rfl, rfl, _⟩ | ⟨_, _, h⟩
        · exact ⟨_, by simpa using Entry.brace _ _ _ hw h3 (h4 k2), fun _ => rfl⟩
        · simp at h
      · simp only at e2
        subst e2
        rcases h5 with ⟨rfl, rfl, h5⟩ | ⟨rfl, w5, h⟩
        · refine ⟨_, by simpa [w2] using Entry.colon _ _ _ hw h3, fun h => ?_⟩
          simp only [decide_eq_false_iff_not]
          intro hh
          have := h5 h (k2.2 ⟨took_token t3 (by decide) (by decide) (fun _ => rfl) hh, hp⟩)
          rw [hp] at this
          simp at this
        · exact ⟨_, by simpa [w2, w5] using Entry.semi _ _ _ hw h3 (h4 (k2.1 h).1), fun _ => rfl⟩
    have he : l6.scanner.inp ≠ [] ∨ ts6 ≠ [] →
        ∃ b, Entry cfg.gram b (x1.text ++ sep ++ c ++ semi) (words ([x1] ++ ts2 ++ ts3 ++ ts5)) ∧
        ((nextSt {} l5).token = .semicolon → b = false) := by
      intro hne
      refine he' (h3.whole (fun h => ?_))
      have := (t6.ended (t5.ended h).1)
      rcases hne with hne | hne
      · exact hne this.1
      · exact hne this.2
    have hx : l1.text = x1.text := g1.text.symm
    simp only [hx]
    refine sat_ite (fun hdn => ?_) (fun hdn => ?_)
    · have hdn : done = true := hdn
      subst hdn
      have hn6 : ts6 ≠ [] := by
        rintro rfl
        rcases h6 with ⟨e, w⟩ | ⟨s, hs, e, w⟩ | ⟨s, hs, e, w⟩ | ⟨e, w⟩ <;> simp at e w
      obtain ⟨b, he, hb⟩ := he (.inr hn6)
      refine ⟨x1.text ++ sep ++ c ++ semi ++ cl, [x1] ++ ts2 ++ ts3 ++ ts5 ++ ts6, by simp, ?_,
        by simpa using ht⟩
      rw [words_append]
      rcases h6 with ⟨e, w⟩ | ⟨s, hs, e, w⟩ | ⟨s, hs, e, w⟩ | ⟨e, w⟩ <;>
        simp only [Prod.mk.injEq, reduceCtorEq, and_false] at e
      · rw [e.1, w]; exact .last _ _ _ he
      · rw [e.1, w, ← List.append_assoc]; exact .lastSep _ _ _ _ he (hs.imp id (fun h => ⟨h.1, hb h.2⟩))
    · have hdn : done = false := by simpa using hdn
      subst hdn
      have hmore : l6.scanner.inp ≠ [] → ∀ s' ws', Entries cfg.gram s' ws' →
          Entries cfg.gram (x1.text ++ sep ++ c ++ semi ++ cl ++ s') (words ([x1] ++ ts2 ++ ts3 ++ ts5 ++ ts6) ++ ws') := by
        intro hne s' ws' h7
        obtain ⟨b, he, hb⟩ := he (.inl hne)
        rw [words_append (_ ++ _) ts6]
        rcases h6 with ⟨e, w⟩ | ⟨s, hs, e, w⟩ | ⟨s, hs, e, w⟩ | ⟨e, w⟩ <;>
          simp only [Prod.mk.injEq, and_false, Bool.false_eq_true] at e
        · rw [e.1, w]; simpa using Entries.sep _ _ _ _ _ _ he (hs.imp id (fun h => ⟨h.1, hb h.2⟩)) h7
        · rw [e.1, w]; simpa using Entries.blank _ _ _ _ _ he h7
      refine (Sat.tailCut ht (ih ht.good (by omega) (by omega)) ?_).mono ?_ (fun _ _ h => h)
      · rintro ws hend ⟨s', more, hs⟩
        by_cases hne : l6.scanner.inp = []
        · rw [hend hne]
          by_cases h6' : ts6 = []
          · subst h6'
            rcases h3 with h3 | ⟨hn3, hs3⟩
            · obtain ⟨b, he, _⟩ := he' h3
              exact ⟨_, [c!"}"], by simpa using Entries.last _ _ _ he⟩
            · obtain ⟨s3, m3, h3⟩ := hs3
              have := (t5.ended hn3).2
              subst this
              rcases h2 with ⟨_, rfl, k2⟩ | ⟨_, w2, _⟩
              · have h4 : (words ts3 ++ m3).head? = some c!"{" := by
                  have := h4 k2
                  cases hw3 : words ts3 with
                  | nil => rw [hw3] at this; simp at this
                  | cons w ws => rw [hw3] at this; simpa using this
                exact ⟨_, m3 ++ [c!"}"], by simpa using Entries.last _ _ _ (.brace _ _ _ hw h3 h4)⟩
              · exact ⟨_, m3 ++ [c!"}"], by simpa [w2] using Entries.last _ _ _ (.colon _ _ _ hw h3)⟩
          · obtain ⟨b, he, hb⟩ := he (.inr h6')
            rcases h6 with ⟨e, w⟩ | ⟨s, hs, e, w⟩ | ⟨s, hs, e, w⟩ | ⟨e, w⟩ <;>
              simp only [Prod.mk.injEq, and_false, Bool.false_eq_true] at e
            · have := Entries.lastSep _ _ _ _ he (hs.imp id (fun h => ⟨h.1, hb h.2⟩))
              refine ⟨x1.text ++ sep ++ c ++ semi ++ s ++ c!"}", [c!"}"], ?_⟩
              rw [words_append (_ ++ _) ts6, w]
              simpa using this
            · exact absurd (by simpa [words] using w) h6'
        · exact ⟨_, more, by rw [List.append_assoc]; exact hmore hne _ _ hs⟩
      rintro r' l' ⟨s', vs, rfl, h7, h8⟩
      refine ⟨x1.text ++ sep ++ c ++ semi ++ cl ++ s', [x1] ++ ts2 ++ ts3 ++ ts5 ++ ts6 ++ vs, by simp, ?_,
        by simpa using ht.trans h8⟩
      rw [words_append]
      refine hmore (fun h => ?_) _ _ h7
      have := (h8.ended h).2
      subst this
      exact entries_ne h7 rfl

theorem parseCloud_cut {H : Halt → Prop} {cfg : Cfg} {d : Nat} {constant : P Str}
    (hp : cfg.permissive = true) (hc : ConstOK H cfg.gram d constant) {l : Lexer} (hg : Good l)
    (hd : l.scanner.inp.length < d + 1) :
    Sat H (fun r l' => ∃ ts, Constant cfg.gram r (words ts) ∧ Took l ts l' ∧
        (words ts).head? = some c!"{")
      (FailC (!cfg.permissive) (fun ws => Begins (Constant cfg.gram) ws ∧ (ws = [] ∨ ws.head? = some c!"{")) l)
      (parseCloud cfg constant l) := by
  unfold parseCloud
  refine expect_cut .next rfl (by simp) (by simp) (Took.refl hg) (⟨began_constant _, .inl rfl⟩)
    (fun x1 l1 g1 ht => ?_)
  rw [sat_txt, sat_bound]
  have hl := ht.length
  simp at hl
  refine (Sat.tailCut ht (cloudLoop_cut hp hc _ ht.good (by omega) (by omega)) ?_).mono ?_ (fun _ _ h => h)
  · rintro ws _ ⟨s, more, hs⟩
    exact ⟨⟨_, more, by simpa [g1.punct rfl] using Constant.msg (G := cfg.gram) _ _ hp hs⟩, .inr (by simp [g1.punct rfl])⟩
  rintro r l' ⟨s, us, rfl, h1, h2⟩
  refine ⟨[x1] ++ us, ?_, by simpa using ht.trans h2, by simp [g1.punct rfl]⟩
  rw [← g1.text]
  simpa [g1.punct rfl] using Constant.msg (G := cfg.gram) _ _ hp h1

/-- `{ "," constant }` -/
inductive ConstTail (G : Gram) : Str → List Str → Prop
  | nil : ConstTail G [] []
  | cons (s : Str) (ws : List Str) (s' : Str) (ws' : List Str) : Constant G s ws → ConstTail G s' ws' →
      ConstTail G (c!"," ++ s ++ s') (c!"," :: ws ++ ws')

theorem constList_of_tail {G : Gram} {s s' : Str} {ws ws' : List Str} (h : ConstantList G s ws)
    (h' : ConstTail G s' ws') : ConstantList G (s ++ s') (ws ++ ws') := by
  induction h' generalizing s ws with
  | nil => simpa using h
  | cons a as b bs ha _ ih => simpa using ih (.more s ws a as h ha)

theorem constantsLoop_cut {H : Halt → Prop} {G : Gram} {d : Nat} {constant : P Str}
    (hc : ConstOK H G d constant) (n : Nat) :
    ∀ {l : Lexer} {acc : Str}, Good l → l.scanner.inp.length < n → l.scanner.inp.length < d →
    Sat H (fun r l' => ∃ s us, r = acc ++ s ∧ Partly (ConstTail G) s l' (words us) ∧ Took l us l' ∧
        (nextSt {} l').token ≠ .comma)
      (FailC (!G.permissive) (Begins (ConstTail G)) l) (constantsLoop constant n acc l) := by
  induction n with
  | zero => intro _ _ _ h; omega
  | succ n ih =>
    intro l acc hg hn hd
    unfold constantsLoop
    refine sat_next hg ?_
    rw [sat_tok]
    refine sat_ite (fun h => ?_) (fun h => ?_)
    · refine sat_unNext ?_
      refine ⟨[], [], by simp, .inl .nil, took_putBack hg _, ?_⟩
      rw [(back_putBack hg {}).token]
      exact h
    have hk : (nextSt {} l).token = .comma := by simpa using h
    have g := got_next (m := {}) rfl hk (by simp) (by simp)
    have ht := next_took hg (m := {}) rfl (by rw [hk]; simp)
    generalize nextSt {} l = l1 at ht g
    generalize nextTok {} l = x1 at ht g
    have hl := ht.length
    simp at hl
    refine Sat.cut ht (orUnexpected_cut (hc ht.good (by omega))) ?_ ?_
    · rintro ws _ ⟨⟨s, more, hs⟩, _⟩
      exact ⟨_, more, by simpa [g.punct rfl] using ConstTail.cons _ _ _ _ hs .nil⟩
    rintro r l2 ⟨us, h1, h2, _⟩
    have ht := ht.trans h2
    have hl := ht.length
    simp at hl
    refine (Sat.tailCut ht (ih ht.good (by omega) (by omega)) ?_).mono ?_ (fun _ _ h => h)
    · rintro ws hend ⟨s, more, hs⟩
      rcases h1 with h1 | ⟨hn, s1, m1, h1⟩
      · exact ⟨_, more, by simpa [g.punct rfl] using ConstTail.cons _ _ _ _ h1 hs⟩
      · rw [hend hn]
        exact ⟨_, m1, by simpa [g.punct rfl] using ConstTail.cons _ _ _ _ h1 .nil⟩
    rintro r' l' ⟨s, vs, rfl, h3, h4, h5⟩
    refine ⟨c!"," ++ r ++ s, x1 :: us ++ vs, by simp, ?_, by simpa using ht.trans h4, h5⟩
    rcases h1 with h1 | ⟨hn, s1, m1, h1⟩
    · rcases h3 with h3 | ⟨hn3, s3, m3, h3⟩
      · exact .inl (by simpa [g.punct rfl] using ConstTail.cons _ _ _ _ h1 h3)
      · exact .inr ⟨hn3, _, m3, by simpa [g.punct rfl] using ConstTail.cons _ _ _ _ h1 h3⟩
    · obtain ⟨hn4, rfl⟩ := h4.ended hn
      exact .inr ⟨hn4, _, m1, by simpa [g.punct rfl] using ConstTail.cons _ _ _ _ h1 .nil⟩

theorem parseOptionConstants_cut {H : Halt → Prop} {G : Gram} {d : Nat} {constant : P Str}
    (hc : ConstOK H G d constant) {l : Lexer} (hg : Good l) (hd : l.scanner.inp.length < d) :
    Sat H (fun r l' => ∃ us, Partly (ConstantList G) r l' (words us) ∧ Took l us l' ∧
        (nextSt {} l').token ≠ .comma)
      (FailC (!G.permissive) (Begins (ConstantList G)) l) (parseOptionConstants constant l) := by
  unfold parseOptionConstants
  refine Sat.cut (Took.refl hg) (hc hg hd) ?_ ?_
  · rintro ws _ ⟨⟨s, more, hs⟩, _⟩
    exact ⟨_, more, .one _ _ hs⟩
  rintro r l2 ⟨us, h1, h2, _⟩
  have hl := h2.length
  rw [sat_bound]
  refine (Sat.tailCut h2 (constantsLoop_cut hc _ h2.good (by omega) (by omega)) ?_).mono ?_ (fun _ _ h => h)
  · rintro ws hend ⟨s, more, hs⟩
    rcases h1 with h1 | ⟨hn, s1, m1, h1⟩
    · exact ⟨_, more, by rw [List.append_assoc]; exact constList_of_tail (.one _ _ h1) hs⟩
    · rw [hend hn]
      exact ⟨_, m1, by simpa using ConstantList.one _ _ h1⟩
  rintro r' l' ⟨s, vs, rfl, h3, h4, h5⟩
  refine ⟨us ++ vs, ?_, h2.trans h4, h5⟩
  rw [words_append]
  rcases h1 with h1 | ⟨hn, s1, m1, h1⟩
  · rcases h3 with h3 | ⟨hn3, s3, m3, h3⟩
    · exact .inl (constList_of_tail (.one _ _ h1) h3)
    · exact .inr ⟨hn3, _, m3, by rw [List.append_assoc]; exact constList_of_tail (.one _ _ h1) h3⟩
  · obtain ⟨hn4, rfl⟩ := h4.ended hn
    exact .inr ⟨hn4, _, m1, by simpa using ConstantList.one _ _ h1⟩

theorem gap_change {com : Bool} {c : Char} {r r' g : Str} {cs : List (Str × Str)}
    (h : Gap com (c :: r) g cs) : Gap com (c :: r') g cs := by
  induction h with
  | nil => exact .nil
  | space d g cs hd _ ih => exact .space d g cs hd ih
  | comment raw text g cs hm hc _ ih =>
    refine .comment raw text g cs hm ?_ ih
    generalize hx : g ++ c :: r = x at hc
    cases hc with
    | line b hb => exact .line b hb
    | last b hb he => rw [he] at hx; simp at hx
    | block b hb => exact .block b hb

/-- A token that is one rune is read again if something follows it. -/
theorem lex_again {c : Char} {t : Token} (hc : isSpace c = false) (h1 : c ≠ '/')
    (h2 : ∀ x, (tokenAt {} (c :: x)).token = t) {inp y : Str} (h : (lex {} inp).body = [c]) :
    (lex {} ((lex {} inp).raw ++ y)).token = t := by
  obtain ⟨g, cs, x, e1, e2, e3, e4⟩ := lex_solid (m := {}) rfl inp
  have hr : (lex {} inp).raw = g ++ [c] := by rw [LexOut.raw, e3, h]
  have hd := drop_raw {} inp
  rw [hr] at hd ⊢
  have hx : x = c :: inp.drop (g ++ [c]).length := by
    have := e1.symm.trans hd
    simp only [List.append_assoc] at this
    simpa using List.append_cancel_left this
  rw [hx] at e2
  have := lex_gap (m := {}) (rest := c :: y) (g := g) (cs := cs) (gap_change e2)
  rw [show g ++ [c] ++ y = g ++ (c :: y) by simp, this]
  show (lex {} (c :: y)).token = t
  rw [lex_token (by simpa using hc) (by simpa using h1)]
  exact h2 y

/-- An error after looking at a token that is no semicolon. -/
theorem failC_peek {B : List Str → Prop} {l : Lexer} (hg : Good l) {c : Char} {t : Token} (hc : isSpace c = false)
    (h1 : c ≠ '/') (h2 : ∀ x, (tokenAt {} (c :: x)).token = t) (h3 : t ≠ .semicolon)
    (h : (nextTok {} l).text = [c]) (s : String) (hB : B []) {α : Type} {H : Halt → Prop} {Q : α → Lexer → Prop} :
    Sat H Q (FailC true B l) ((unexpected s : P α) (putBack {} l)) := by
  refine ⟨fail_putBack hg {} _ _, .inr ⟨rfl, ?_⟩, .single _ _ _ (before_here (.refl hg) hB),
    before_here (.refl hg) hB⟩
  intro h'
  apply h3
  rw [← h', eq_comm]
  exact lex_again hc h1 h2 h

theorem optionConstant_cut {H : Halt → Prop} {cfg : Cfg} (d : Nat) :
    ConstOK H cfg.gram d (optionConstant cfg d) := by
  induction d with
  | zero => intro _ _ h; omega
  | succ d ih =>
    intro l hg hd
    unfold optionConstant
    refine sat_peek hg ?_
    have hb := back_putBack hg {}
    refine sat_ite (fun h => ?_) (fun h => ?_)
    · have g := got_next (m := {}) rfl h (by simp) (by simp)
      refine sat_ite (fun hp => ?_) (fun hp => ?_)
      · rw [show (!cfg.gram.permissive) = true from hp]
        exact failC_peek hg (c := '{') (t := .leftCurly) (by decide) (by decide) (fun _ => rfl) (by simp)
          (g.punct rfl) _ ⟨⟨_, [c!"1"], .number _ (.inl int_one)⟩, fun _ => .inl rfl⟩
      have hp : cfg.permissive = true := by simpa using hp
      refine sat_peekN2 hb.good (by rw [hb.token, h]; exact ⟨by simp, by simp, by simp⟩) ?_
      intro l1 hb1
      have hb2 := hb.trans hb1
      refine sat_ite (fun h1 => ?_) (fun h1 => ?_)
      · show Sat H _ (FailC (!cfg.permissive) _ l) (((next >>= fun _ => nextN 1) >>= fun _ => Pure.pure c!"{}") l1)
        have r1 := run_next hb1.good
        have hg2 := good_next hb1.good {}
        have r2 := run_next hg2
        have hr : nextN 2 l1 = .ok () (nextSt {} (nextSt {} l1)) := by
          unfold nextN
          refine (bind_ok r1).trans ?_
          unfold nextN
          refine (bind_ok r2).trans ?_
          rfl
        show Sat H _ (FailC (!cfg.permissive) _ l) (M.bind (nextN 2) _ l1)
        unfold M.bind
        rw [hr]
        have k1 : (nextSt {} l1).token = .leftCurly := by rw [hb2.token]; exact h
        have k2 : (nextSt {} (nextSt {} l1)).token = .rightCurly := by
          rw [← h1]
          simp only [nextSt, after_inp, hb1.inp]
        have g1 := got_next (m := {}) rfl k1 (by simp) (by simp)
        have g2 := got_next (m := {}) rfl k2 (by simp) (by simp)
        have ht := (hb2.took hg).trans (next_took hb1.good (m := {}) rfl (by rw [k1]; simp))
        have ht := ht.trans (next_took hg2 (m := {}) rfl (by rw [k2]; simp))
        refine ⟨_, ?_, ht, ?_⟩
        · simp only [words_append, words_cons, words_nil, List.nil_append, g1.punct rfl, g2.punct rfl]
          exact .inl (.emptyMsg hp)
        · simp [g1.punct rfl]
      · refine (Sat.tailCut (hb2.took hg) (parseCloud_cut hp ih hb1.good
          (by rw [hb2.inp]; exact hd)) ?_).mono ?_ (fun _ _ h => h)
        · rintro ws _ ⟨h1, h2⟩
          exact ⟨h1, fun _ => h2⟩
        rintro r l' ⟨ts, h2, h3, h4⟩
        exact ⟨ts, .inl h2, (hb2.took hg).trans h3, fun _ => h4⟩
    refine sat_ite (fun h1 => ?_) (fun h1 => ?_)
    · have g := got_next (m := {}) rfl h1 (by simp) (by simp)
      refine sat_ite (fun hp => ?_) (fun hp => ?_)
      · rw [show (!cfg.gram.permissive) = true from hp]
        exact failC_peek hg (c := '[') (t := .leftSquare) (by decide) (by decide) (fun _ => rfl) (by simp)
          (g.punct rfl) _ ⟨⟨_, [c!"1"], .number _ (.inl int_one)⟩, fun _ => .inl rfl⟩
      have hp : cfg.permissive = true := by simpa using hp
      refine sat_next hb.good ?_
      have k1 : (nextSt {} (putBack {} l)).token = .leftSquare := by rw [hb.token]; exact h1
      have g1 := got_next (m := {}) rfl k1 (by simp) (by simp)
      have ht := (hb.took hg).trans (next_took hb.good (m := {}) rfl (by rw [k1]; simp))
      generalize nextSt {} (putBack {} l) = l1 at ht g1
      generalize nextTok {} (putBack {} l) = x1 at ht g1
      refine sat_peek ht.good ?_
      refine sat_ite (fun h2 => ?_) (fun h2 => ?_)
      · have h2' : (nextSt {} (putBack {} l1)).token = .rightSquare := h2
        have ht := ht.nil_trans (took_putBack ht.good {})
        refine sat_next ht.good ?_
        have g2 := got_next (m := {}) rfl h2' (by simp) (by simp)
        have ht := ht.trans (next_took ht.good (m := {}) rfl (by rw [h2']; simp))
        refine ⟨_, ?_, ht, fun h' => absurd h' h⟩
        simp only [words_append, words_cons, words_nil, List.nil_append, g1.punct rfl, g2.punct rfl]
        exact .inl (.emptyList hp)
      · have ht := ht.nil_trans (took_putBack ht.good {})
        have hl := ht.length
        simp at hl
        refine Sat.cut ht (parseOptionConstants_cut ih ht.good (by omega)) ?_ ?_
        · rintro ws _ ⟨s, more, hs⟩
          exact ⟨⟨_, more ++ [c!"]"], by simpa [g1.punct rfl] using Constant.list _ _ _ hp hs (.inl rfl)⟩,
            fun h' => absurd h' h⟩
        rintro r l2 ⟨us, h3, h4, h5⟩
        have ht := ht.trans h4
        refine sat_next ht.good ?_
        by_cases he : (nextSt {} l2).token = .eof
        · have hn := eof_took ht.good rfl he
          refine ⟨_, .inr ⟨hn.2.1, ?_⟩, ht.trans hn.1, fun h' => absurd h' h⟩
          obtain ⟨s, more, hs⟩ := h3.begins
          exact ⟨_, more ++ [c!"]"], by simpa [g1.punct rfl] using Constant.list _ _ _ hp hs (.inl rfl)⟩
        · have hn := next_took ht.good rfl he
          refine ⟨_, .inl ?_, ht.trans hn, fun h' => absurd h' h⟩
          simp only [words_append, words_cons, words_nil, List.nil_append, g1.punct rfl]
          refine Constant.list _ _ _ hp (h3.whole (fun h => ?_)) (.inr ⟨rfl, fun hc => ?_⟩)
          · simpa using (hn.ended h).2
          · exact h5 (took_token hn (c := ',') (by decide) (by decide) (fun _ => rfl) (by simp [hc]))
    · refine Sat.cut (hb.took hg) (readConstant_cut hb.good cfg.permissive true true) ?_ ?_
      · rintro ws _ hs
        exact ⟨hs, fun h' => absurd h' h⟩
      rintro ⟨c, q⟩ l' ⟨ts, h2, h3, _⟩
      exact ⟨ts, .inl h2, (hb.took hg).trans h3, fun h' => absurd h' h⟩

theorem parseOptionConstant_cut {H : Halt → Prop} {cfg : Cfg} {l : Lexer} (hg : Good l) :
    Sat H (fun r l' => ∃ ts, Partly (Constant cfg.gram) r l' (words ts) ∧ Took l ts l')
      (FailC (!cfg.permissive) (Begins (Constant cfg.gram)) l) (parseOptionConstant cfg l) := by
  unfold parseOptionConstant
  rw [sat_bound]
  refine (optionConstant_cut _ hg (by omega)).mono ?_ ?_
  · rintro r l' ⟨ts, h1, h2, _⟩
    exact ⟨ts, h1, h2⟩
  · intro e l' h
    exact h.trans (Took.refl hg) (fun _ _ h => h.1)

theorem parseOptionConstant_sat {H : Halt → Prop} {cfg : Cfg} {l : Lexer} (hg : Good l) :
    Sat H (fun r l' => ∃ ts, Partly (Constant cfg.gram) r l' (words ts) ∧ Took l ts l')
      (FailR (!cfg.permissive) l) (parseOptionConstant cfg l) := (parseOptionConstant_cut hg).toR

theorem parseOption_plain {H : Halt → Prop} {cfg : Cfg} {l : Lexer} (hg : Good l) :
    Sat H (fun r l' => (∃ ts, OptionToks cfg.gram r ts ∧ Took l ts l') ∧ r.comments = [] ∧ r.inlineComment = none)
      (FailR (!cfg.permissive) l) (parseOption cfg l) := by
  unfold parseOption
  refine step_expect (.with_ .kw) rfl (by simp) (by simp) (Took.refl hg) (fun x1 l1 g1 ht => ?_)
  rw [sat_position]
  refine Sat.stepR ht (parseOptionName_sat ht.good) ?_
  rintro s l2 ⟨us, h1, h2⟩
  have ht := ht.trans h2
  refine step_expect .next rfl (by simp) (by simp) ht (fun x3 l3 g3 ht => ?_)
  refine Sat.stepR ht (parseOptionConstant_sat ht.good) ?_
  rintro c l4 ⟨vs, h3, h4⟩
  have ht := ht.trans h4
  refine step_expect .next rfl (by simp) (by simp) ht (fun x5 l5 g5 ht => ?_)
  have h3 := h3.whole (fun h => got_not_nil g5 h (by simp))
  rw [sat_position]
  refine ⟨⟨x1 :: (us ++ x3 :: vs) ++ [x5], ⟨_, _, h1, h3, ?_,
    spans_mk (by simp [g1.pos]) (by simp [g5.pos])⟩, by simpa using ht⟩, rfl, rfl⟩
  simp [g1.kw rfl, g3.punct rfl, g5.punct rfl]

theorem parseOption_sat {H : Halt → Prop} {cfg : Cfg} {l : Lexer} (hg : Good l) :
    Sat H (fun r l' => ∃ ts, OptionToks cfg.gram r ts ∧ Took l ts l') (FailR (!cfg.permissive) l) (parseOption cfg l) :=
  (parseOption_plain hg).mono (fun _ _ h => h.1) (fun _ _ h => h)

end Parser
end Verif
