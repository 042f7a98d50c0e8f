import Verif.Proofs.ParseMessage
import Verif.Model.Api

/-!
# Files: proto.go
-/

set_option backward.isDefEq.respectTransparency false
set_option backward.dsimp.instances true

namespace Verif
open Spec Scanner Lexer
open M (bind_ok run_get)

variable {sm calm : Bool}

/-- Nothing was put back twice. -/
def CleanF (calm : Bool) (l : Lexer) (vs : List Visitee) : Prop :=
  (NoGroup l.scanner.inp ∨ calm = true) ∨ ¬ FileHasEmpty vs

/-- After some statements and a semicolon there is a comment on the line of the semicolon. -/
def PanicAt (calm : Bool) (G : Gram) (l : Lexer) : Prop :=
  ∃ vs us t l1 x l2, Spec.Body G .file vs us ∧ t.text = c!";" ∧ (CleanF calm l vs → Took l (us ++ [t]) l1) ∧
    Parser.CommentsRead l1 [x] l2 ∧ t.pos.line = x.info.pos.line

namespace Parser

section
variable {H : Halt → Prop} {cfg : Cfg}

/-- What is asked of a statement of a file. -/
def FileStmtOut (calm : Bool) (cfg : Cfg) (cs : List Comment) (l : Lexer) (r : List Visitee × Visitee) (l' : Lexer) : Prop :=
  Good l' ∧
    ((r.1 = [] ∧ r.2 ≠ .nil ∧ (∀ c, r.2 ≠ .comment c) ∧ inlineOf r.2 = none ∧
        (∀ cs', commentsOf r.2 = some cs' → cs' = cs) ∧
        ∃ ts, Toks cfg.gram .file r.2 ts ∧
          (CleanF calm l [r.2] → SegOut cfg.gram cfg.bodyIncludingComments l r.2 ts l')) ∨
     (r = ([.emptyStatement {}], .nil) ∧ ∃ t, t.text = c!";" ∧ Took l [t] l' ∧ t.pos = l'.pos.p ∧
        l'.token = .semicolon))

theorem cleanF_took {l l1 : Lexer} {ts : List Tok} (ht : Took l ts l1) {vs : List Visitee}
    (h : CleanF calm l vs) : CleanF calm l1 vs := h.imp (Or.imp (fun h => h.suffix ht.suffix) id) id

theorem cleanF_cons {l : Lexer} {v : Visitee} {vs : List Visitee} (h : CleanF calm l (v :: vs)) :
    CleanF calm l [v] ∧ CleanF calm l vs := by
  refine ⟨h.imp id (fun h h' => h ?_), h.imp id (fun h h' => h ?_)⟩
  · obtain ⟨x, h1, h2⟩ := h'
    exact ⟨x, by simp_all, h2⟩
  · obtain ⟨x, h1, h2⟩ := h'
    exact ⟨x, by simp_all, h2⟩

theorem readEmpty_next {E : Err → Lexer → Prop} {l : Lexer} (hg : Good l)
    (hE : ∀ e l', Bad sm l e l' → E e l') :
    Sat H (fun _ l' => ∃ t, t.text = c!";" ∧ Took l [t] l' ∧ t.pos = l'.pos.p ∧
        l'.token = .semicolon) E (readEmptyStatement l) := by
  rw [readEmptyStatement_eq hg]
  by_cases h : (nextSt {} l).token = .semicolon
  · rw [if_pos h]
    obtain ⟨h1, h2⟩ := next_reads (m := {}) rfl h (by simp) (by simp)
    exact ⟨nextTok {} l, h1.trans (semicolon_text h2), next_took hg rfl (by rw [h]; simp), rfl, h⟩
  · rw [if_neg h]
    exact hE _ _ (fail_putBack hg {} _ _).bad

theorem protoStmt_sat {cs : List Comment} {t : Token} {l : Lexer} (hg : Good l)
    (hd : H .fuel ∨ (NoGroup l.scanner.inp ∧ l.scanner.inp.length < cfg.fuel)) :
    Sat H (FileStmtOut calm cfg cs l) (BadN calm (!cfg.permissive) l) (protoStmtK calm cfg cs t l) := by
  unfold protoStmtK
  have ht := Took.refl hg
  split
  · refine Sat.stepR ht ((parseImport_sat (G := cfg.gram) rfl hg).and (parseImport_ends _)) ?_
    rintro x l1 ⟨⟨ts, h1, h2⟩, he⟩
    exact ⟨h2.good, .inl ⟨rfl, by simp, by simp, he.inline, by simp [commentsOf], ts, .importStmt _ _ h1,
      fun _ => ended_out h2 (importToks_spans h1) he trivial⟩⟩
  · refine Sat.stepR ht ((parsePackage_sat hg).and (parsePackage_ends _)) ?_
    rintro x l1 ⟨⟨ts, h1, h2⟩, he⟩
    exact ⟨h2.good, .inl ⟨rfl, by simp, by simp, he.inline, by simp [commentsOf], ts, .package _ _ h1,
      fun _ => ended_out h2 (packageToks_spans h1) he trivial⟩⟩
  · refine Sat.stepR ht ((parseOption_sat hg).and (parseOption_ends _ _)) ?_
    rintro x l1 ⟨⟨ts, h1, h2⟩, he⟩
    exact ⟨h2.good, .inl ⟨rfl, by simp, by simp, he.inline, by simp [commentsOf], ts, .option _ _ _ (by simp) h1,
      fun _ => ended_out h2 (optionToks_spans h1) he trivial⟩⟩
  · refine Sat.step ht (parseMessageWith_sat (messageBody_sat _) (.inl rfl) hg
      (hd.imp id (fun h => ⟨h.1, h.2, by omega⟩))) ?_
    rintro x l1 ⟨hg1, h0, ts, h1, h2⟩
    refine ⟨hg1, .inl ⟨rfl, by simp, by simp, h0, by simp [commentsOf], ts, h1 cs, fun hc => h2 ?_ cs⟩⟩
    exact hc.imp id (fun hc h => hc ⟨{ x with comments := cs }, by simp, h⟩)
  · refine Sat.stepB ht (parseEnum_sat (.inl rfl) hg) ?_
    rintro x l1 ⟨h0, ts, h1, h2⟩
    exact ⟨(h2 cs).took.good, .inl ⟨rfl, by simp, by simp, h0, by simp [commentsOf], ts, h1 cs, fun _ => h2 cs⟩⟩
  · refine Sat.stepB ht (parseService_sat hg) ?_
    rintro x l1 ⟨h0, ts, h1, h2⟩
    exact ⟨(h2 cs).took.good, .inl ⟨rfl, by simp, by simp, h0, by simp [commentsOf], ts, h1 cs, fun _ => h2 cs⟩⟩
  · refine Sat.stepB ht (parseExtend_sat (.inl rfl) hg) ?_
    rintro x l1 ⟨h0, ts, h1, h2⟩
    exact ⟨(h2 cs).took.good, .inl ⟨rfl, by simp, by simp, h0, by simp [commentsOf], ts, h1 cs, fun _ => h2 cs⟩⟩
  · refine Sat.bind (readEmpty_next hg (fun _ _ h => h.badN)) ?_
    rintro - l1 ⟨x, h1, h2, h3, h4⟩
    exact ⟨h2.good, .inr ⟨rfl, x, h1, h2, h3, h4⟩⟩

/-- The outcome of the loop over the statements of a file: what remains is a gap. -/
def FileLoopOut (calm : Bool) (cfg : Cfg) (l : Lexer) (vs : List Visitee) (r : List Visitee) (l' : Lexer) : Prop :=
  ∃ ws us, r = vs ++ ws ∧ Spec.Body cfg.gram .file ws us ∧
    (CleanF calm l ws → ∃ is, toks is = us ∧ (Recd l → ComBody cfg.gram cfg.bodyIncludingComments .file ws is) ∧
      TookI l is l') ∧
    Good l' ∧ (nextSt {} l').token = .eof ∧ NoCom l'

theorem panicAt_cons {G : Gram} {l l1 : Lexer} {v : Visitee} {ts : List Tok} (hj : G.junk = true)
    (h1 : Toks G .file v ts) (h2 : CleanF calm l [v] → Took l ts l1) (h : PanicAt calm G l1) : PanicAt calm G l := by
  obtain ⟨vs, us, t, l2, x, l3, k1, k2, k3, k4⟩ := h
  refine ⟨v :: vs, ts ++ us, t, l2, x, l3, (.cons _ _ _ _ _ h1 k1 (by rw [hj]; simp)), k2, fun hc => ?_, k4⟩
  obtain ⟨c1, c2⟩ := cleanF_cons hc
  have ht := h2 c1
  simpa using ht.trans (k3 (cleanF_took ht c2))

theorem fileHasEmpty_inl {v : Visitee} {o : Option Comment} (h : FileHasEmpty [v]) :
    FileHasEmpty [v.inl o] := by
  cases o with
  | none => exact h
  | some c => ?_
  obtain ⟨x, h1, h2⟩ := h
  simp only [List.mem_singleton] at h1
  subst h1
  exact ⟨{ x with inlineComment := some c }, by simp [Visitee.inl, Visitee.withInline], h2⟩

theorem protoLoop_sat (n : Nat) :
    ∀ {l : Lexer} {vs : List Visitee}, Good l → (PanicAt calm cfg.gram l → H .panic) →
    (H .fuel ∨ (NoGroup l.scanner.inp ∧ l.scanner.inp.length < n ∧ l.scanner.inp.length < cfg.fuel)) →
    Sat H (FileLoopOut calm cfg l vs) (BadN calm (!cfg.permissive) l) (protoLoopK calm cfg n vs l) := by
  induction n with
  | zero =>
    intro l vs _ _ h
    rcases h with h | h
    · exact h
    · omega
  | succ n ih =>
    intro l vs hg hp hn
    unfold protoLoopK
    refine stepI_comments (TookI.refl hg) (fun cs l1 ht hnc => ?_)
    simp only [List.nil_append] at ht
    refine sat_isEOF ht.good ?_
    have hbk := back_putBack ht.good {}
    have hnc := hnc.back hbk
    have ht := ht.back hbk
    refine sat_ite (fun h => ?_) (fun h => ?_)
    · have he : (nextSt {} (putBack {} l1)).token = .eof := by rw [hbk.token]; simpa using h
      exact ⟨_, [], rfl, bodyComments_body _ _, fun _ => ⟨_, by simp, fun _ => .done _ cs, ht⟩, ht.good, he, hnc⟩
    · generalize putBack {} l1 = l1' at ht hnc
      refine sat_peekKeyword ht.good ?_
      have hbk := back_putBack ht.good .kw
      have hnc := hnc.back hbk
      have ht := ht.back hbk
      generalize (nextSt Mode.kw l1').token = t
      generalize putBack .kw l1' = l2 at ht hnc
      have htk : Took l [] l2 := by simpa using ht.took
      have hd := hn.imp id (fun h => (⟨h.1.suffix htk.suffix, by have := htk.length; simp at this; omega⟩ :
        NoGroup l2.scanner.inp ∧ l2.scanner.inp.length < cfg.fuel))
      refine Sat.step htk (protoStmt_sat (cs := cs) ht.good hd) ?_
      rintro ⟨now, v⟩ l3 ⟨hg3, ⟨hnow, h2, h3, h0, h0', ts, h1, h4⟩ | ⟨hr, x, h1, h2, h3, h3'⟩⟩
      · simp only at hnow
        subst hnow
        have hne := toks_ne h1 h2 h3
        refine Sat.bind (maybeScan_sat hg3 h2 h3) ?_
        rintro v' l4 ⟨o, rfl, ho⟩
        have h8 : CleanF calm l [v.inl o] → SegOut cfg.gram cfg.bodyIncludingComments l2 v ts l3 := fun hc =>
          h4 (cleanF_took htk (hc.imp id (fun hc h => hc (fileHasEmpty_inl h))))
        have h9 : CleanF calm l [v.inl o] → Took l ts l4 := by
          intro hc
          simpa using htk.trans ((h8 hc).took.nil_trans ho.nil)
        have hn' : H .fuel ∨ (NoGroup l4.scanner.inp ∧ l4.scanner.inp.length < n ∧
            l4.scanner.inp.length < cfg.fuel) := by
          refine hn.imp id (fun ⟨k1, k2, k3⟩ => ?_)
          have ht := h9 (.inl (.inl k1))
          have hl := ht.length
          have : 0 < ts.length := List.length_pos_iff.2 hne
          exact ⟨k1.suffix ht.suffix, by omega, by omega⟩
        refine (ih ho.took.good (fun hq => hp (panicAt_cons rfl (toks_inl h1 o) h9 hq)) hn').mono ?_
          (fun _ _ he => he.trans' (fun hn => ⟨_, h9 (.inl hn)⟩))
        rintro r l' ⟨ws, us, k1, k2, k3, k4⟩
        refine ⟨v.inl o :: ws, ts ++ us, by simp [k1], .cons _ _ _ _ _ (toks_inl h1 o) k2 (by simp [Cfg.gram]), fun hc => ?_, k4⟩
        obtain ⟨c1, c2⟩ := cleanF_cons hc
        obtain ⟨is, rfl, j2, j3⟩ := k3 (cleanF_took (h9 c1) c2)
        obtain ⟨js, m1, m2, m3⟩ := seg_body (tl := []) ht hnc h2 h3 h0 h0' h1 (h8 c1) ho j2 (by simpa using j3)
        exact ⟨js, m2, m1, by simpa using m3⟩
      · simp only [Prod.mk.injEq] at hr
        obtain ⟨rfl, rfl⟩ := hr
        have ht3 := htk.trans h2
        simp only [List.nil_append] at ht3
        unfold maybeScanInlineComment
        refine Sat.bind (Q := fun v l4 => v = .nil ∧ Inline l3 none l4) (Sat.bind (parseInline_sat h2.good) ?_) ?_
        · intro c l4 hi
          cases c with
          | none => exact ⟨rfl, hi⟩
          | some c =>
            obtain ⟨k1, _⟩ := hi.some c rfl
            exact hp ⟨[], [], x, l3, c, l4, .nil _, h1, fun _ => ht3, hi.read c rfl, by rw [h3, k1]⟩
        rintro v l4 ⟨rfl, hi⟩
        have ht4 := ht3.nil_trans hi.nil
        have e1 : Toks cfg.gram .file (.emptyStatement {}) [x] := .empty _ _ _ h1
        have hn' : H .fuel ∨ (NoGroup l4.scanner.inp ∧ l4.scanner.inp.length < n ∧
            l4.scanner.inp.length < cfg.fuel) := by
          refine hn.imp id (fun ⟨k1, k2, k3⟩ => ?_)
          have hl := ht4.length
          simp at hl
          exact ⟨k1.suffix ht4.suffix, by omega, by omega⟩
        refine (ih ht4.good (fun hq => hp (panicAt_cons rfl e1 (fun _ => ht4) hq)) hn').mono ?_
          (fun _ _ he => he.trans' (fun hn => ⟨_, ht4⟩))
        rintro r l' ⟨ws, us, k1, k2, k3, k4⟩
        refine ⟨.emptyStatement {} :: .nil :: ws, [x] ++ ([] ++ us), by simp [k1],
          .cons _ _ _ _ _ e1 (.cons _ _ _ _ _ .nil k2 (by simp [Cfg.gram])) (by simp [Cfg.gram]), fun hc => ?_, k4⟩
        obtain ⟨is, rfl, j2, j3⟩ := k3 (cleanF_took ht4 (cleanF_cons (cleanF_cons hc).2).2)
        obtain ⟨lost, j4, j5⟩ := h2.one (real_of h3')
        rw [j5 hnc] at j4
        refine ⟨coms cs ++ .tok x :: is, by simp [toks_append],
          fun hr => .semi cs x ws is h1 (hi.behind (by rw [h3]) j3) (j2 (ht4.recd hr)), ?_⟩
        simpa using ((ht.trans j4).trans hi.took).trans j3

theorem parseBOM_sat {E : Err → Lexer → Prop} {l : Lexer} (hg : Good l) :
    Sat H (fun _ l' => ∃ bom, (bom = [] ∨ (∃ lost t, bom = coms lost ++ [.tok t] ∧ t.text = [Char.ofNat 0xFEFF])) ∧
        TookI l bom l') E
      (parseBOM l) := by
  unfold parseBOM
  refine sat_next hg ?_
  rw [sat_tok]
  refine sat_ite (fun h => ?_) (fun h => ?_)
  · have g := got_next (m := {}) rfl h (by simp) (by simp)
    obtain ⟨lost, ht, _⟩ := next_items hg (m := {}) rfl (real_of h)
    exact ⟨_, .inr ⟨lost, _, rfl, g.punct rfl⟩, ht⟩
  · refine sat_unNext ?_
    exact ⟨[], .inl rfl, (back_putBack hg _).tookI hg⟩

/-- A statement of the head of a file was read, or nothing. -/
def HeadOut {α : Type} (R : α → List Tok → Prop) (inline : α → Option Comment) (comments : α → List Comment)
    (cs : List Comment) (l : Lexer) (r : Option α) (l' : Lexer) : Prop :=
  (∀ x, r = some x → comments x = cs) ∧
  ∃ is, Optional R r (toks is) ∧ TookI l is l' ∧ (r = none → is = []) ∧
    ∀ rest l'', TookI l' rest l'' → ComHead R inline rest r is

theorem syntaxPart_sat {cs : List Comment} {l : Lexer} (hg : Good l) :
    Sat H (HeadOut SyntaxToks Syntax.inlineComment Syntax.comments cs l) (FailR sm l) (syntaxPart cs l) := by
  unfold syntaxPart
  refine Sat.bind (((parseSyntax_sat hg).and (parseSyntax_ends _)).and (parseSyntax_back hg)) ?_
  rintro r l1 ⟨⟨⟨ts, h1, h2⟩, he⟩, hb⟩
  cases h1 with
  | none =>
    exact ⟨by simp, [], .none, (hb rfl).tookI hg, fun _ => rfl, fun _ _ _ => .none⟩
  | some a ts h =>
    have he := he a rfl
    obtain ⟨seg, t, rfl, k2, k3, k4⟩ := ended_seg h2 (by obtain ⟨_, _, _, _, _, _, _, h⟩ := h; exact h) he
    refine Sat.bind (parseInline_sat k2.good) (fun c l2 hi => ?_)
    refine ⟨by rintro x ⟨⟩; rfl, seg ++ opt c, .some _ _ ?_, k2.trans hi.took, by simp, fun rest l'' k => ?_⟩
    · simp only [toks_append, toks_opt, List.append_nil]
      exact h
    · exact ComHead.some (R := SyntaxToks) (inline := fun x => x.inlineComment) { a with comments := cs, inlineComment := c } seg t h k3 (hi.behind k4 k)

theorem editionPart_sat {cs : List Comment} {l : Lexer} (hg : Good l) :
    Sat H (HeadOut EditionToks Edition.inlineComment Edition.comments cs l) (FailR sm l) (editionPart cs l) := by
  unfold editionPart
  refine Sat.bind (((parseEdition_sat hg).and (parseEdition_ends _)).and (parseEdition_back hg)) ?_
  rintro r l1 ⟨⟨⟨ts, h1, h2⟩, he⟩, hb⟩
  cases h1 with
  | none =>
    exact ⟨by simp, [], .none, (hb rfl).tookI hg, fun _ => rfl, fun _ _ _ => .none⟩
  | some a ts h =>
    have he := he a rfl
    obtain ⟨seg, t, rfl, k2, k3, k4⟩ := ended_seg h2 (by obtain ⟨_, _, _, _, _, _, _, h⟩ := h; exact h) he
    refine Sat.bind (parseInline_sat k2.good) (fun c l2 hi => ?_)
    refine ⟨by rintro x ⟨⟩; rfl, seg ++ opt c, .some _ _ ?_, k2.trans hi.took, by simp, fun rest l'' k => ?_⟩
    · simp only [toks_append, toks_opt, List.append_nil]
      exact h
    · exact ComHead.some (R := EditionToks) (inline := fun x => x.inlineComment) { a with comments := cs, inlineComment := c } seg t h k3 (hi.behind k4 k)

/-- The head of a file: what is before its body. -/
inductive Head : List Tok → Prop
  | mk (bom ss es : List Tok) (s : Option Syntax) (e : Option Edition) :
      bom = [] ∨ words bom = [[Char.ofNat 0xFEFF]] → Optional SyntaxToks s ss → Optional EditionToks e es →
      Head (bom ++ ss ++ es)

theorem parseProto_sat {l : Lexer} (hg : Good l) (hr : Recd l)
    (hp : (∃ ts l1, Head ts ∧ Took l ts l1 ∧ PanicAt calm cfg.gram l1) → H .panic)
    (hd : H .fuel ∨ (NoGroup l.scanner.inp ∧ l.scanner.inp.length < cfg.fuel)) :
    Sat H (fun r l' => (∃ ts, ProtoToks cfg.gram r ts ∧ (CleanF calm l r.protoBody → ∃ is, toks is = ts ∧
          ComProto cfg.gram cfg.bodyIncludingComments r is ∧ TookI l is l')) ∧
        Good l' ∧ (nextSt {} l').token = .eof ∧ NoCom l') (BadN calm (!cfg.permissive) l) (parseProtoK calm cfg l) := by
  unfold parseProtoK
  refine Sat.bind (parseBOM_sat hg) ?_
  rintro - l1 ⟨bom, h1, ht⟩
  have h1' : toks bom = [] ∨ words (toks bom) = [[Char.ofNat 0xFEFF]] := by
    rcases h1 with rfl | ⟨lost, t, rfl, h⟩
    · exact .inl rfl
    · exact .inr (by simp [toks_append, h])
  refine stepI_comments ht (fun cs l2 ht2 hnc => ?_)
  refine Sat.stepR ht2.took (syntaxPart_sat ht2.good) ?_
  rintro s l3 ⟨c3, ss, h2, ht3, _, h2'⟩
  have ht := ht2.trans ht3
  refine Sat.stepR ht.took (editionPart_sat ht.good) ?_
  rintro e l4 ⟨c4, es, h3, ht4, _, h3'⟩
  have ht := ht.trans ht4
  have htk : Took l (toks bom ++ toks ss ++ toks es) l4 := by simpa [toks_append] using ht.took
  unfold parseProtoBodyK
  have hl := htk.length
  refine Sat.step htk (protoLoop_sat _ ht.good (fun h => hp ⟨_, _, .mk _ _ _ _ _ h1' h2 h3, htk, h⟩)
    (hd.imp id (fun h => ⟨h.1.suffix htk.suffix, by omega, by omega⟩))) ?_
  rintro b l5 ⟨ws, us, k1, k2, k3, k4⟩
  simp only [List.nil_append] at k1
  subst k1
  rw [sat_position]
  refine ⟨⟨_, .mk _ _ _ _ _ h1' h2 h3 k2, fun hc => ?_⟩, k4⟩
  obtain ⟨js, rfl, j2, j3⟩ := k3 (cleanF_took htk hc)
  refine ⟨bom ++ coms cs ++ ss ++ es ++ js, by simp [toks_append],
    .mk _ bom cs ss es js h1 (h2' _ _ (ht4.trans j3)) c3 (h3' _ _ j3) c4 ?_ (j2 (ht.recd hr)), ht.trans j3⟩
  have k := (ht3.trans ht4).trans j3
  intro c hc
  obtain ⟨t, ks, e⟩ := hnc.starts k (by intro e; rw [e] at hc; simp at hc)
  rw [e] at hc
  simp at hc

end

end Parser
end Verif
