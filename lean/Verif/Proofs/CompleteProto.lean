import Verif.Proofs.CompleteMessage
import Verif.Proofs.ParseProto

/-!
# Whole files are accepted
-/

set_option backward.isDefEq.respectTransparency false
set_option backward.dsimp.instances true

namespace Verif
variable {T : Src} {calm : Bool}
open Spec Scanner Lexer
open M (bind_ok run_get)

/-- The words that start an element of a file. -/
def fileWords : List Str :=
  [c!"import", c!"package", c!"option", c!"message", c!"enum", c!"service", c!"extend"]

namespace Parser

section
variable {H : Halt → Prop} {E : Err → Lexer → Prop} {l : Lexer} {rest : List Str} {cfg : Cfg} {G : Gram}

theorem importToks_first {x : Import} {ts : List Tok} (h : ImportToks G x ts) :
    ∃ ws, words ts = c!"import" :: ws := by
  obtain ⟨_, ms, _, h, _⟩ := h
  exact ⟨_, h.trans rfl⟩

theorem packageToks_first {x : Package} {ts : List Tok} (h : PackageToks x ts) :
    ∃ ws, words ts = c!"package" :: ws := by
  obtain ⟨_, _, h, _⟩ := h
  exact ⟨_, h.trans rfl⟩

theorem fileToks_first {v : Visitee} {ts : List Tok} (h : Toks G .file v ts) (hv : bare v ≠ .nil)
    (hne : ∀ e, v ≠ .emptyStatement e) : ∃ w ws, words ts = w :: ws ∧ w ∈ fileWords := by
  cases h with
  | comment => simp [bare] at hv
  | nil => simp [bare] at hv
  | empty _ e => exact absurd rfl (hne e)
  | junk _ e => exact absurd rfl (hne e)
  | importStmt x ts h =>
    obtain ⟨ws, e⟩ := importToks_first h
    exact ⟨_, ws, e, by decide⟩
  | package x ts h =>
    obtain ⟨ws, e⟩ := packageToks_first h
    exact ⟨_, ws, e, by decide⟩
  | option k x ts _ h =>
    obtain ⟨ws, e⟩ := optionToks_first h
    exact ⟨_, ws, e, by decide⟩
  | message k x hd bs cl _ h => exact ⟨_, _, by rw [words_append, words_append, h]; rfl, by decide⟩
  | enum k x hd bs cl _ h => exact ⟨_, _, by rw [words_append, words_append, h]; rfl, by decide⟩
  | extend k x ws hd bs cl _ _ h => exact ⟨_, _, by rw [words_append, words_append, h]; rfl, by decide⟩
  | service x hd bs cl h => exact ⟨_, _, by rw [words_append, words_append, h]; rfl, by decide⟩
  | field _ _ _ hk => simp at hk
  | reserved _ _ _ hk => simp at hk

theorem fileWords_word {w : Str} (hw : w ∈ fileWords) : Word w := by
  simp only [fileWords, List.mem_cons, List.not_mem_nil, or_false] at hw
  rcases hw with rfl | rfl | rfl | rfl | rfl | rfl | rfl
  · exact spelling_word (t := .kImport) rfl
  · exact spelling_word (t := .kPackage) rfl
  · exact spelling_word (t := .kOption) rfl
  · exact spelling_word (t := .kMessage) rfl
  · exact spelling_word (t := .kEnum) rfl
  · exact spelling_word (t := .kService) rfl
  · exact spelling_word (t := .kExtend) rfl

theorem protoStmt_go (hG : G.permissive = cfg.permissive) (hl : G.loose = false) (hj : G.junk = false)
    {v : Visitee} {ts : List Tok} (hx : Toks G .file v ts) (hv : bare v ≠ .nil)
    (hne : ∀ e, v ≠ .emptyStatement e) {cs : List Comment} {l0 : Lexer}
    (hs : Shut cfg ts rest) (hfu : ts.length ≤ cfg.fuel)
    (h0 : Ahead T l0 (words ts ++ rest)) (h : Ahead T l (words ts ++ rest)) :
    Sat H (fun r l' => r.1 = [] ∧ Stmt T v rest r.2 l') E (protoStmtK calm cfg cs (nextSt .kw l0).token l) := by
  have kw : ∀ {t : Token} {k : Str} {ws : List Str}, spelling t = some k → words ts = k :: ws →
      (nextSt .kw l0).token = t := fun hk e => Ahead.keyword (by rw [e] at h0; exact h0) hk
  cases hx with
  | comment => simp [bare] at hv
  | nil => simp [bare] at hv
  | empty _ e => exact absurd rfl (hne e)
  | junk _ e => exact absurd rfl (hne e)
  | importStmt x ts hx =>
    obtain ⟨ws, e⟩ := importToks_first hx
    rw [kw (t := .kImport) rfl e]
    unfold protoStmtK
    refine Sat.bind (parseImport_go hl hx h) ?_
    rintro r l1 ⟨h1, k1⟩
    exact ⟨rfl, by simp only [bare]; exact congrArg _ h1, k1⟩
  | package x ts hx =>
    obtain ⟨ws, e⟩ := packageToks_first hx
    rw [kw (t := .kPackage) rfl e]
    unfold protoStmtK
    refine Sat.bind (parsePackage_go hx h) ?_
    rintro r l1 ⟨h1, k1⟩
    exact ⟨rfl, by simp only [bare]; exact congrArg _ h1, k1⟩
  | option k x ts _ hx =>
    obtain ⟨ws, e⟩ := optionToks_first hx
    rw [kw (t := .kOption) rfl e]
    unfold protoStmtK
    refine Sat.bind (parseOption_go hG hl hx h) ?_
    rintro r l1 ⟨h1, k1⟩
    exact ⟨rfl, by simp only [bare]; exact congrArg _ h1, k1⟩
  | message _ x hd bs cl _ h1 hn hb hc _ =>
    rw [kw (t := .kMessage) rfl (by rw [words_append, words_append, h1]; rfl)]
    unfold protoStmtK
    have hlen : bs.length < (hd ++ bs ++ cl).length := by
      have := toks_pos h1
      simp; omega
    refine Sat.bind (parseMessage_go hG hl hj h1 hn hb hc hs (by omega) h) ?_
    rintro r l1 ⟨⟨h1, h2⟩, k1⟩
    exact ⟨rfl, bare_message h1 h2, k1⟩
  | enum _ x hd bs cl _ h1 hn hb hc _ =>
    rw [kw (t := .kEnum) rfl (by rw [words_append, words_append, h1]; rfl)]
    unfold protoStmtK
    refine Sat.bind (parseEnum_go hG hl hj h1 hn hb hc hs h) ?_
    rintro r l1 ⟨⟨h1, h2⟩, k1⟩
    exact ⟨rfl, bare_enum h1 h2, k1⟩
  | extend _ x ws hd bs cl _ hm h1 hb hc _ =>
    rw [kw (t := .kExtend) rfl (by rw [words_append, words_append, h1]; rfl)]
    unfold protoStmtK
    refine Sat.bind (parseExtend_go hG hl hj hm h1 hb hc hs h) ?_
    rintro r l1 ⟨⟨h1, h2⟩, k1⟩
    exact ⟨rfl, bare_extend h1 h2, k1⟩
  | service x hd bs cl h1 hn hb hc _ =>
    rw [kw (t := .kService) rfl (by rw [words_append, words_append, h1]; rfl)]
    unfold protoStmtK
    refine Sat.bind (parseService_go hG hl hj h1 hn hb hc hs h) ?_
    rintro r l1 ⟨⟨h1, h2⟩, k1⟩
    exact ⟨rfl, bare_service h1 h2, k1⟩
  | field _ _ _ hk => simp at hk
  | reserved _ _ _ hk => simp at hk

/-! ### Semicolons of their own -/

theorem advanceAll_line (t : Str) : ∀ p : SPos, (p.advanceAll t).p.line = p.p.line + (t.count '\n' : Nat) := by
  induction t with
  | nil => intro p; simp [SPos.advanceAll]
  | cons c t ih =>
    intro p
    show ((p.advance c).advanceAll t).p.line = _
    rw [ih]
    unfold SPos.advance
    by_cases h : c = '\n'
    · subst h; simp; omega
    · simp [h]

theorem gap_white {rest g : Str} {cs : List (Str × Str)} (h : Gap false rest g cs) : ∀ x ∈ g, White x := by
  generalize hb : false = b at h
  induction h with
  | nil => simp
  | space c g cs hc _ ih =>
    intro x hx
    rcases List.mem_cons.1 hx with rfl | hx
    · exact hc
    · exact ih x hx
  | comment _ _ _ _ hm => simp [← hb] at hm

theorem white_gap {w : Str} (h : ∀ x ∈ w, White x) (rest : Str) : ∃ cs, Gap false rest w cs := by
  induction w with
  | nil => exact ⟨_, .nil⟩
  | cons c w ih =>
    obtain ⟨cs, hg⟩ := ih (fun x hx => h x (by simp [hx]))
    exact ⟨_, .space c w cs (h c (by simp)) hg⟩

/-- Whether there is an inline comment depends on the text behind the token. -/
theorem inline_trailed {l : Lexer} (hg : Good l) (hl : l.scanner.pos.p.line = l.pos.p.line) :
    (Trailed l.scanner.inp ∧ ∃ c l', parseInlineComment l = .ok (some c) l') ∨
    (¬ Trailed l.scanner.inp ∧ parseInlineComment l = .ok none (putBack .commentMode l)) := by
  have hr := parseComment_eq hg
  by_cases h : (nextSt .commentMode l).token = .comment
  · obtain ⟨_, g, raw, cs, h1, h2, h3, h4⟩ := nextComment_took hg h
    by_cases hn : '\n' ∈ g
    · refine .inr ⟨?_, ?_⟩
      · rintro ⟨w, raw', text', rest', e, hw, hc⟩
        obtain ⟨cs', hgw⟩ := white_gap (fun x hx => (hw x hx).1) (raw' ++ rest')
        have e2 := lex_gap (m := .commentMode) (cs := cs') hgw
        rw [lex_comment hc, ← e] at e2
        have e3 := lex_gap (m := .commentMode) (cs := cs) h2
        rw [lex_comment h3, ← h1, e2] at e3
        have : w = g := by simpa using congrArg LexOut.gap e3
        subst this
        exact (hw _ hn).2 rfl
      · unfold parseInlineComment
        refine (bind_ok (run_position _)).trans ?_
        show M.bind (M.attempt parseComment) _ l = _
        unfold M.bind M.attempt
        rw [hr, if_pos h]
        have : l.pos.p.line ≠ (mkComment (nextSt .commentMode l).text (nextSt .commentMode l).pos).info.pos.line := by
          show l.pos.p.line ≠ (nextSt .commentMode l).pos.p.line
          rw [h4, advanceAll_line, hl]
          have := List.count_pos_iff.2 hn
          omega
        simp only [this, ne_eq, not_false_eq_true, if_true]
        exact (bind_ok (unNext_nextSt _ _)).trans rfl
    · refine .inl ⟨⟨g, raw, _, _, h1, fun x hx => ⟨gap_white h2 x hx, by rintro rfl; exact hn hx⟩, h3⟩, ?_⟩
      refine ⟨mkComment (nextSt .commentMode l).text (nextSt .commentMode l).pos, nextSt .commentMode l, ?_⟩
      unfold parseInlineComment
      refine (bind_ok (run_position _)).trans ?_
      show M.bind (M.attempt parseComment) _ l = _
      unfold M.bind M.attempt
      rw [hr, if_pos h]
      have : l.pos.p.line = (mkComment (nextSt .commentMode l).text (nextSt .commentMode l).pos).info.pos.line := by
        show l.pos.p.line = (nextSt .commentMode l).pos.p.line
        rw [h4, advanceAll_line, hl]
        have := List.count_eq_zero.2 hn
        omega
      simp only [this, ne_eq, not_true_eq_false, if_false]
      rfl
  · refine .inr ⟨?_, ?_⟩
    · rintro ⟨w, raw', text', rest', e, hw, hc⟩
      obtain ⟨cs', hgw⟩ := white_gap (fun x hx => (hw x hx).1) (raw' ++ rest')
      have e2 := lex_gap (m := .commentMode) (cs := cs') hgw
      rw [lex_comment hc, ← e] at e2
      apply h
      show (lex .commentMode l.scanner.inp).token = .comment
      rw [e2]
    · unfold parseInlineComment
      refine (bind_ok (run_position _)).trans ?_
      show M.bind (M.attempt parseComment) _ l = _
      unfold M.bind M.attempt
      rw [hr, if_neg h]
      rfl

/-- The semicolon of an empty statement of a file: a comment behind it makes the parser panic. -/
theorem fileSemi_go {α : Type} {Q : α → Lexer → Prop} {f : List Visitee × Visitee → P α} {cs : List Comment} {ws : List Str}
    (h : Ahead T l (c!";" :: ws)) {t : Token} (ht : t = .semicolon)
    (hp : ∀ c, After T.1 T.2 ws c → Trailed c → H .panic)
    (hf : ∀ l', Ahead T l' ws → (∃ c, After T.1 T.2 ws c ∧ ¬ Trailed c) →
      Sat H Q E (f ([.emptyStatement {}], .nil) l')) :
    Sat H Q E ((do
      let (now, stmt) ← protoStmtK calm cfg cs t
      let stmt ← maybeScanInlineComment stmt
      f (now, stmt)) l) := by
  subst ht
  obtain ⟨h1, _, h3, h4⟩ := h.next_exact (m := {}) rfl tokIs_semi
  have hline : (nextSt {} l).scanner.pos.p.line = (nextSt {} l).pos.p.line := by
    have hk := got_next (m := {}) rfl h1 (by simp) (by simp)
    exact got_line (m := {}) rfl (t := .semicolon) (by simp) (by simp) hk (c := ';')
      (by simpa [Reads, punctuation, spelling] using hk.reads) (by decide)
  refine Sat.bind (Q := fun r l' => r = ([.emptyStatement {}], .nil) ∧ l' = nextSt {} l) ?_ ?_
  · unfold protoStmtK
    refine Sat.bind (Q := fun _ l' => l' = nextSt {} l) ?_ ?_
    · rw [readEmptyStatement_eq h.good, if_pos h1]
      rfl
    · rintro _ l' rfl
      exact ⟨rfl, rfl⟩
  · rintro ⟨now, r⟩ l' ⟨h5, rfl⟩
    simp only [Prod.mk.injEq] at h5
    obtain ⟨rfl, rfl⟩ := h5
    show Sat H Q E (M.bind (maybeScanInlineComment .nil) _ (nextSt {} l))
    unfold M.bind
    rcases inline_trailed h3.good hline with ⟨h5, c, l', h6⟩ | ⟨h5, h6⟩
    · have : maybeScanInlineComment .nil (nextSt {} l) = Res.halt .panic := by
        unfold maybeScanInlineComment
        exact (bind_ok h6).trans rfl
      rw [this]
      exact hp _ h4 h5
    · have : maybeScanInlineComment .nil (nextSt {} l) = Res.ok .nil (putBack .commentMode (nextSt {} l)) := by
        unfold maybeScanInlineComment
        exact (bind_ok h6).trans rfl
      rw [this]
      exact hf _ (h3.putBack _) ⟨_, h4, h5⟩

theorem loneIn_here {s : Tok} (hs : s.text = c!";") (us : List Tok) : LoneIn G (s :: us) us :=
  ⟨[], [], s, rfl, hs, .nil _, fun _ => by simp [words]⟩

theorem loneIn_cons {v : Visitee} {ts us us' : List Tok} (hx : Toks G .file v ts) (hj : G.junk = false)
    (ht : G.junk = false → G.permissive = true → Tight ts us) (h : LoneIn G us us') : LoneIn G (ts ++ us) us' := by
  obtain ⟨vs, ts1, s, rfl, hs, hb, hl⟩ := h
  refine ⟨v :: vs, ts ++ ts1, s, by simp, hs, .cons _ _ _ _ _ hx hb ?_, fun hp => ?_⟩
  · intro h1 h2 h3
    have := ht h1 h2 h3
    cases ts1 with
    | nil => simp [words]
    | cons t ts1 => simpa [words] using this
  · cases ts1 with
    | nil =>
      rw [List.append_nil]
      intro h3
      exact ht hj hp h3 (by simp [words, hs])
    | cons t ts1 =>
      rw [words_append, List.getLast?_append]
      have := hl hp
      obtain ⟨w, hw⟩ : ∃ w, (words (t :: ts1)).getLast? = some w := by
        rw [← Option.isSome_iff_exists]; simp [words]
      rw [hw] at this ⊢
      simpa using this

theorem withNils_cons_empty (e : EmptyStatement) (vs : List Visitee) :
    withNils (.emptyStatement e :: vs) = .emptyStatement e :: .nil :: withNils vs := rfl

theorem withNils_cons {v : Visitee} (h : ∀ e, v ≠ .emptyStatement e) (vs : List Visitee) :
    withNils (v :: vs) = v :: withNils vs := by
  cases v <;> first | rfl | exact absurd rfl (h _)

theorem withNils_id {vs : List Visitee} (h : ∀ e, .emptyStatement e ∉ vs) : withNils vs = vs := by
  induction vs with
  | nil => rfl
  | cons v vs ih =>
    rw [withNils_cons (fun e he => h e (by simp [he])), ih (fun e he => h e (by simp [he]))]

theorem bare_ne_empty {v : Visitee} (h : ∀ e, v ≠ .emptyStatement e) (e : EmptyStatement) : bare v ≠ .emptyStatement e := by
  cases v <;> first | exact absurd rfl (h _) | simp [bare]

theorem bareAll_no_empty {vs : List Visitee} (h : ∀ e, .emptyStatement e ∉ vs) (e : EmptyStatement) :
    .emptyStatement e ∉ bareAll vs := by
  induction vs with
  | nil => rw [bareAll]; simp
  | cons v vs ih =>
    have h1 := ih (fun e he => h e (by simp [he]))
    have h2 := bare_ne_empty (v := v) (fun e he => h e (by simp [he])) e
    by_cases hc : ∃ c, v = .comment c
    · obtain ⟨c, rfl⟩ := hc
      rw [bareAll_comment]; exact h1
    · have : bareAll (v :: vs) = bare v :: bareAll vs := by
        cases v <;> first | exact absurd ⟨_, rfl⟩ hc | (rw [bareAll] <;> simp)
      rw [this]
      simp [h1, Ne.symm h2]

/-- The elements of a file are read one after the other. -/
theorem protoLoop_run {Q : List Visitee → Lexer → Prop} (hG : G.permissive = cfg.permissive) (hl : G.loose = false)
    (hj : G.junk = false) {ts' : List Tok} (n : Nat) :
    ∀ {l : Lexer} {acc vs : List Visitee} {ts : List Tok}, Spec.Body G .file vs ts → .nil ∉ vs →
      Ahead T l (words (ts ++ ts')) → Shut cfg ts (words ts') →
      (∀ us c e, .emptyStatement e ∈ vs → LoneIn G ts us → After T.1 T.2 (words (us ++ ts')) c → Trailed c → H .panic) →
      ts.length < n → ts.length ≤ cfg.fuel →
      (∀ {l' acc' n'}, Ahead T l' (words ts') → bareAll acc' = bareAll acc ++ withNils (bareAll vs) → 0 < n' →
        Sat H Q E (protoLoopK calm cfg n' acc' l')) →
    Sat H Q E (protoLoopK calm cfg n acc l) := by
  induction n with
  | zero => intro _ _ _ _ _ _ _ _ _ h; omega
  | succ n ih =>
    intro l acc vs ts hb hp h ht hH hn hfu hf
    rcases body_uncons hb hp with ⟨rfl, e⟩ |
      ⟨v, ts1, vs', ts2, g1, g2, g3, rfl, e, g6, g7, g8, g9⟩
    · exact hf h (by rw [e]; simp [withNils]) (by omega)
    have hT2 : Shut cfg ts2 (words ts') := by
      intro h2 h3
      refine ht h2 ?_
      rw [words_append, List.getLast?_append, h3]
      rfl
    have hH2 : ∀ us c e, .emptyStatement e ∈ vs' → LoneIn G ts2 us → After T.1 T.2 (words (us ++ ts')) c → Trailed c →
        H .panic :=
      fun us c e h0 h1 h2 h3 => hH us c e (g7 _ h0) (loneIn_cons g1 hj g9 h1) h2 h3
    have hpos : 0 < ts1.length := by
      obtain ⟨w, ws, ew, _⟩ := toks_first hj g1 g2
      have := congrArg List.length ew
      simp [words] at this
      omega
    unfold protoLoopK
    refine go_comments h (fun cs l1 h => ?_)
    refine sat_isEOF h.good ?_
    rw [List.append_assoc] at h
    simp only [List.length_append] at hn hfu
    by_cases hv : ∃ x, v = .emptyStatement x
    · obtain ⟨x, rfl⟩ := hv
      cases g1 with
      | junk _ _ _ _ hjj => rw [hj] at hjj; simp at hjj
      | empty _ _ s hs =>
      have h : Ahead T l1 (c!";" :: words (ts2 ++ ts')) := by
        simpa [words, hs] using h
      refine sat_neg (by simp [(h.next (m := {}) rfl tokIs_semi).1]) ?_
      have h := h.putBack {}
      generalize putBack {} l1 = l2 at *
      refine sat_peekKeyword h.good ?_
      have hk := h.semi_keyword
      have h := h.putBack .kw
      refine fileSemi_go (f := fun r => protoLoopK calm cfg n (acc ++ r.1 ++ [r.2])) h hk
        (fun c h1 h2 => hH ts2 c x g8 (loneIn_here hs ts2) h1 h2) (fun l3 k3 _ => ?_)
      refine ih g3 g6 k3 hT2 hH2 (by omega) (by omega) (fun h1 h2 h3 => hf h1 ?_ h3)
      rw [h2, e]
      simp only [bare, withNils_cons_empty, bareAll_append]
      rw [bareAll_single (by simp [bare]), bareAll_nil_cons]
      simp [bare, bareAll]
    · have hv : ∀ e, v ≠ .emptyStatement e := fun e he => hv ⟨e, he⟩
      obtain ⟨w, ws, ew, hw⟩ := fileToks_first g1 g2 hv
      have hne : (nextSt {} l1).token ≠ .eof := by
        rw [words_append, ew] at h
        rw [(h.next (m := {}) rfl (tokIs_ident (fileWords_word hw))).1]
        simp
      refine sat_neg (by simpa using hne) ?_
      have h := h.putBack {}
      generalize putBack {} l1 = l2 at *
      refine sat_peekKeyword h.good ?_
      rw [words_append] at h
      have hsh : Shut cfg ts1 (words (ts2 ++ ts')) := by
        rw [words_append]
        refine shut_of_tight' hG hj g3 g6 g9 ?_
        rintro rfl
        rw [List.append_nil] at ht
        exact ht
      refine Sat.bind (protoStmt_go hG hl hj g1 g2 hv hsh (by omega) h (h.putBack _)) ?_
      rintro ⟨now, r⟩ l2 ⟨rfl, h1, k2⟩
      refine maybeScan_go (by rw [h1]; exact g2) k2 (fun r' l3 h3 k3 => ?_)
      refine ih g3 g6 k3 hT2 hH2 (by omega) (by omega) (fun h1' h2 h3' => hf h1' ?_ h3')
      rw [h2, e, List.append_nil, bareAll_append, bareAll_single (by rw [h3, h1]; exact g2), h3, h1,
        withNils_cons (bare_ne_empty hv)]
      simp

/-- What can start the rest of a file. -/
def FileStart (bad : List Str) (ws : List Str) : Prop :=
  ws = [] ∨ ∃ w us, ws = w :: us ∧ (w = c!";" ∨ (Word w ∧ w ∉ bad))

theorem FileStart.not_keyword {bad : List Str} {ws : List Str} (hs : FileStart bad ws) (h : Ahead T l ws)
    {t : Token} {k : Str} (ht : spelling t = some k) (hk : k ∈ bad) : (nextSt .kw l).token ≠ t := by
  rcases hs with rfl | ⟨w, us, rfl, rfl | ⟨hw, hn⟩⟩
  · rw [(h.eof (m := .kw) rfl).1]
    rintro rfl
    simp [spelling] at ht
  · rw [h.semi_keyword]
    rintro rfl
    simp [spelling] at ht
  · exact Ahead.ne_keyword h (.inl hw) ht (by rintro rfl; exact hn hk)

theorem FileStart.append {bad : List Str} {ws ws' : List Str} (h : FileStart bad ws) (h' : FileStart bad ws') :
    FileStart bad (ws ++ ws') := by
  rcases h with rfl | ⟨w, us, rfl, hw⟩
  · exact h'
  · exact .inr ⟨w, us ++ ws', rfl, hw⟩

theorem body_start {vs : List Visitee} {ts : List Tok} (hj : G.junk = false) (hb : Spec.Body G .file vs ts) (hp : .nil ∉ vs)
    {bad : List Str} (hbad : ∀ w ∈ fileWords, w ∉ bad) : FileStart bad (words ts) := by
  rcases body_uncons hb hp with ⟨rfl, e⟩ |
      ⟨v, ts1, vs', ts2, g1, g2, g3, rfl, e, g6, g7, g8, g9⟩
  · exact .inl rfl
  · by_cases hv : ∃ x, v = .emptyStatement x
    · obtain ⟨x, rfl⟩ := hv
      cases g1 with
      | junk _ _ _ _ hjj => rw [hj] at hjj; simp at hjj
      | empty _ _ s hs => exact .inr ⟨_, _, by rw [words_append]; simp [words, hs]; rfl, .inl rfl⟩
    · obtain ⟨w, ws, ew, hw⟩ := fileToks_first g1 g2 (fun e he => hv ⟨e, he⟩)
      exact .inr ⟨w, ws ++ words ts2, by rw [words_append, ew]; rfl, .inr ⟨fileWords_word hw, hbad w hw⟩⟩

theorem edition_start {e : Option Edition} {es : List Tok} {us : List Str} (he : Optional EditionToks e es)
    {bad : List Str} (hbad : c!"edition" ∉ bad) (hs : FileStart bad us) : FileStart bad (words es ++ us) := by
  cases he with
  | none => exact hs
  | some e es h =>
    obtain ⟨_, _, _, _, _, _, h, _⟩ := h
    exact .inr ⟨_, _, by rw [h]; rfl, .inr ⟨spelling_word (t := .kEdition) rfl, hbad⟩⟩

theorem syntax_start {e : Option Syntax} {es : List Tok} {us : List Str} (he : Optional SyntaxToks e es)
    {bad : List Str} (hbad : c!"syntax" ∉ bad) (hs : FileStart bad us) : FileStart bad (words es ++ us) := by
  cases he with
  | none => exact hs
  | some e es h =>
    obtain ⟨_, _, _, _, _, _, h, _⟩ := h
    exact .inr ⟨_, _, by rw [h]; rfl, .inr ⟨spelling_word (t := .kSyntax) rfl, hbad⟩⟩

theorem syntaxPart_go {s : Option Syntax} {ss : List Tok} {us : List Str} {cs : List Comment}
    (hs : Optional SyntaxToks s ss) (hu : FileStart [c!"syntax"] us) (h : Ahead T l (words ss ++ us)) :
    Sat H (fun r l' => r.map bareSyntax = s.map bareSyntax ∧ Ahead T l' us) E (syntaxPart cs l) := by
  unfold syntaxPart
  cases hs with
  | none =>
    have h : Ahead T l us := h
    refine Sat.bind (Q := fun r l' => r = none ∧ Ahead T l' us) ?_ ?_
    · unfold parseSyntax
      refine sat_nextWith h.good ?_
      rw [sat_tok]
      refine sat_pos (hu.not_keyword h rfl (by simp)) ?_
      refine sat_unNext ?_
      exact ⟨rfl, h.putBack _⟩
    · rintro r l1 ⟨rfl, k1⟩
      exact ⟨rfl, k1⟩
  | some s ss hs =>
    refine Sat.bind (parseSyntax_go hs h) ?_
    rintro r l1 ⟨⟨s', rfl, e⟩, k1⟩
    refine go_inline k1 (fun c l2 k2 => ?_)
    exact ⟨congrArg some e, k2⟩

theorem editionPart_go {s : Option Edition} {ss : List Tok} {us : List Str} {cs : List Comment}
    (hs : Optional EditionToks s ss) (hu : FileStart [c!"edition"] us) (h : Ahead T l (words ss ++ us)) :
    Sat H (fun r l' => r.map bareEdition = s.map bareEdition ∧ Ahead T l' us) E (editionPart cs l) := by
  unfold editionPart
  cases hs with
  | none =>
    have h : Ahead T l us := h
    refine Sat.bind (Q := fun r l' => r = none ∧ Ahead T l' us) ?_ ?_
    · unfold parseEdition
      refine sat_nextWith h.good ?_
      rw [sat_tok]
      refine sat_pos (hu.not_keyword h rfl (by simp)) ?_
      refine sat_unNext ?_
      exact ⟨rfl, h.putBack _⟩
    · rintro r l1 ⟨rfl, k1⟩
      exact ⟨rfl, k1⟩
  | some s ss hs =>
    refine Sat.bind (parseEdition_go hs h) ?_
    rintro r l1 ⟨⟨s', rfl, e⟩, k1⟩
    refine go_inline k1 (fun c l2 k2 => ?_)
    exact ⟨congrArg some e, k2⟩

theorem parseBOM_go {bom : List Tok} {us : List Str} (hb : bom = [] ∨ words bom = [[Char.ofNat 0xFEFF]])
    (hu : FileStart [] us) (h : Ahead T l (words bom ++ us)) :
    Sat H (fun _ l' => Ahead T l' us) E (parseBOM l) := by
  unfold parseBOM
  refine sat_next h.good ?_
  rw [sat_tok]
  rcases hb with rfl | hb
  · have h : Ahead T l us := h
    have hne : (nextSt {} l).token ≠ .bom := by
      rcases hu with rfl | ⟨w, us, rfl, rfl | ⟨hw, _⟩⟩
      · rw [(h.eof (m := {}) rfl).1]; simp
      · rw [(h.next (m := {}) rfl tokIs_semi).1]; simp
      · rw [(h.next (m := {}) rfl (tokIs_ident hw)).1]; simp
    refine sat_neg hne ?_
    have := unNext_nextSt {} l
    show Sat H _ E (unNext (nextSt {} l))
    rw [this]
    exact h.putBack {}
  · rw [hb] at h
    obtain ⟨t1, _, k1⟩ := Ahead.next (w := [Char.ofNat 0xFEFF]) h (m := {}) rfl
      (tokIs_punct (t := .bom) rfl (by simp))
    refine sat_pos t1 ?_
    exact k1

theorem getLast_append {a b : List Str} {w : Str} (h : (a ++ b).getLast? = some w) :
    (b = [] ∧ a.getLast? = some w) ∨ b.getLast? = some w := by
  cases b with
  | nil => exact .inl ⟨rfl, by simpa using h⟩
  | cons x b =>
    right
    rw [List.getLast?_append] at h
    obtain ⟨y, hy⟩ : ∃ y, (x :: b).getLast? = some y := by
      rw [← Option.isSome_iff_exists]; simp
    rw [hy] at h ⊢
    simpa using h

/-- What stands before the body does not end with a right curly. -/
theorem head_last {s : Option Syntax} {e : Option Edition} {bom ss es : List Tok}
    (hb : bom = [] ∨ words bom = [[Char.ofNat 0xFEFF]]) (hs : Optional SyntaxToks s ss)
    (he : Optional EditionToks e es) : (words (bom ++ ss ++ es)).getLast? ≠ some c!"}" := by
  intro h
  rw [words_append, words_append] at h
  rcases getLast_append h with ⟨_, h⟩ | h
  · rcases getLast_append h with ⟨_, h⟩ | h
    · rcases hb with rfl | hb
      · simp [words] at h
      · rw [hb] at h; revert h; decide
    · cases hs with
      | none => simp [words] at h
      | some s ss hs =>
        obtain ⟨_, _, _, _, _, _, hs, _⟩ := hs
        rw [hs] at h
        simp at h
  · cases he with
    | none => simp [words] at h
    | some s ss hs =>
      obtain ⟨_, _, _, _, _, _, hs, _⟩ := hs
      rw [hs] at h
      simp at h

theorem loneIn_file {x : Proto} {bom ss es bs us : List Tok}
    (hb : bom = [] ∨ words bom = [[Char.ofNat 0xFEFF]]) (hs : Optional SyntaxToks x.syntax_ ss)
    (he : Optional EditionToks x.edition es) (h : LoneIn G bs us) : LoneSemi G (bom ++ ss ++ es ++ bs) us := by
  obtain ⟨vs, ts1, s, rfl, hs1, h1, h2⟩ := h
  refine ⟨{ x with protoBody := vs }, bom ++ ss ++ es ++ ts1, s, by simp, hs1, .mk _ _ _ _ _ hb hs he h1, fun hp hl => ?_⟩
  rw [words_append] at hl
  rcases getLast_append hl with ⟨_, h⟩ | h
  · exact head_last hb hs he h
  · exact h2 hp h

/-- A file of the grammar is read, up to the tokens `ts'`. -/
theorem parseProto_run {Q : List Visitee → Lexer → Prop} (hG : G.permissive = cfg.permissive) (hl : G.loose = false)
    (hj : G.junk = false) {x : Proto} {ts ts' : List Tok} (hx : ProtoToks G x ts) (hp : .nil ∉ x.protoBody)
    (hfu : ts.length < cfg.fuel) (h : Ahead T l (words (ts ++ ts')))
    (ht : Shut cfg ts (words ts'))
    (hH : ∀ us c e, .emptyStatement e ∈ x.protoBody → LoneSemi G ts us → After T.1 T.2 (words (us ++ ts')) c → Trailed c → H .panic)
    (hs : ∀ bad, (∀ w ∈ fileWords, w ∉ bad) → FileStart bad (words ts'))
    (hf : ∀ {l' acc n}, Ahead T l' (words ts') → bareAll acc = withNils (bareAll x.protoBody) → 0 < n →
      Sat H Q E (protoLoopK calm cfg n acc l')) :
    Sat H (fun r l' => r.syntax_.map bareSyntax = x.syntax_.map bareSyntax ∧
      r.edition.map bareEdition = x.edition.map bareEdition ∧ Q r.protoBody l') E (parseProtoK calm cfg l) := by
  cases hx with
  | mk bom ss es bs hbom hss hes hb =>
  unfold parseProtoK
  simp only [words_append, List.append_assoc] at h
  have hst : ∀ bad, (∀ w ∈ fileWords, w ∉ bad) → FileStart bad (words bs ++ words ts') := fun bad hbad =>
    (body_start hj hb hp hbad).append (hs bad hbad)
  refine Sat.bind (parseBOM_go hbom (syntax_start hss (by simp)
    (edition_start hes (by simp) (hst [] (by simp)))) h) ?_
  intro _ l1 k1
  refine go_comments k1 (fun cs l2 k2 => ?_)
  refine Sat.bind (syntaxPart_go hss (edition_start hes (by decide) (hst _ (by decide))) k2) ?_
  rintro s l3 ⟨e3, k3⟩
  refine Sat.bind (editionPart_go hes (hst _ (by decide)) k3) ?_
  rintro e l4 ⟨e4, k4⟩
  simp only [List.length_append] at hfu
  rw [← words_append] at k4
  refine Sat.bind (protoLoop_run (Q := Q) hG hl hj cfg.fuel hb hp k4 ?_
    (fun us c e h0 h1 h2 h3 => hH us c e h0 (loneIn_file hbom hss hes h1) h2 h3) (by omega) (by omega)
    (fun h1 h2 h3 => hf h1 (by simpa [bareAll] using h2) h3)) ?_
  · intro h1 h2
    refine ht h1 ?_
    rw [words_append, List.getLast?_append, h2]
    rfl
  · intro b l5 h5
    exact ⟨e3, e4, h5⟩

/-- A file of the grammar is accepted. -/
theorem parseProto_go (hG : G.permissive = cfg.permissive) (hl : G.loose = false) (hj : G.junk = false)
    {x : Proto} {ts : List Tok} (hx : ProtoToks G x ts) (hp : .nil ∉ x.protoBody)
    (hH : ∀ us c e, .emptyStatement e ∈ x.protoBody → LoneSemi G ts us → After T.1 T.2 (words us) c → Trailed c → H .panic)
    (hfu : ts.length < cfg.fuel) (h : Ahead T l (words ts)) :
    Sat H (fun r l' => bareProto r = fileTree x ∧ Ahead T l' []) E
      (parseProtoK calm cfg l) := by
  refine (parseProto_run (ts' := []) (Q := fun r l' => bareAll r = withNils (bareAll x.protoBody) ∧ Ahead T l' [])
    hG hl hj hx hp hfu (by simpa using h) (fun _ _ => trivial) (fun us c e h0 h1 h2 h3 => hH us c e h0 h1 (by simpa using h2) h3)
    (fun _ _ => .inl rfl) ?_).mono ?_ (fun _ _ h => h)
  · intro l' acc n h e hn
    obtain ⟨n, rfl⟩ := Nat.exists_eq_succ_of_ne_zero (Nat.pos_iff_ne_zero.1 hn)
    unfold protoLoopK
    refine go_comments h (fun cs l1 h => ?_)
    refine sat_isEOF h.good ?_
    refine sat_pos (by simp [(Ahead.eof h (m := {}) rfl).1]) ?_
    exact ⟨by rw [bareAll_append, bareAll_bodyComments, e, List.append_nil], h.putBack {}⟩
  · rintro r l' ⟨h1, h2, h3, h4⟩
    exact ⟨by simp only [bareProto, fileTree, h1, h2, h3], h4⟩

theorem after_unique {ws ws' : List Str} {t c c' : Str} (h : After ws t ws' c) (h' : After ws t ws' c') : c = c' := by
  have len : ∀ {ws ws' : List Str} {t c : Str}, After ws t ws' c → ws'.length ≤ ws.length := by
    intro ws ws' t c h
    induction h with
    | refl => exact Nat.le_refl _
    | step _ _ _ _ _ _ _ _ ih => simp; omega
  induction h with
  | refl ws t =>
    cases h' with
    | refl => rfl
    | step g cs w ws c _ _ h => have := len h; simp at this; omega
  | step g cs w ws c hg ha h ih =>
    generalize hu : g ++ (w ++ c) = u at h'
    cases h' with
    | refl => have := len h; simp at this; omega
    | step g2 cs2 w ws c2 hg2 ha2 h' =>
      have e := lex_gap_eq (m := {}) rfl hg ha.solid
      have e2 := lex_gap_eq (m := {}) rfl hg2 ha2.solid
      rw [← hu, e] at e2
      subst e2
      have := List.append_cancel_left (List.append_cancel_left hu)
      subst this
      exact ih h'

/-- A comment behind a semicolon of its own makes the parser panic, whatever follows. -/
theorem parseProto_panics (hG : G.permissive = cfg.permissive) (hl : G.loose = false) (hj : G.junk = false)
    {x : Proto} {ts us : List Tok} {s : Tok} (hx : ProtoToks G x ts) (hp : .nil ∉ x.protoBody) (hs : s.text = c!";")
    (ht : G.permissive = true → (words ts).getLast? ≠ some c!"}")
    (hfu : ts.length < cfg.fuel) (h : Ahead T l (words (ts ++ s :: us)))
    {c : Str} (hc : After T.1 T.2 (words us) c) (hcom : Trailed c) :
    Sat (fun h => h = .panic) (fun _ _ => False) (fun _ _ => False) (parseProtoK calm cfg l) := by
  refine (parseProto_run (H := fun h => h = .panic) (ts' := s :: us) (Q := fun r l' => False)
    hG hl hj hx hp hfu h (fun h1 h2 => absurd h2 (ht (hG.trans h1))) (fun _ _ _ _ _ _ _ => rfl)
    (fun _ _ => .inr ⟨_, _, rfl, .inl hs⟩) ?_).mono (fun _ _ h => h.2.2) (fun _ _ h => h)
  intro l' acc n h e hn
  obtain ⟨n, rfl⟩ := Nat.exists_eq_succ_of_ne_zero (Nat.pos_iff_ne_zero.1 hn)
  unfold protoLoopK
  refine go_comments h (fun cs l1 h => ?_)
  refine sat_isEOF h.good ?_
  have h : Ahead T l1 (c!";" :: words us) := by
    simpa [words, hs] using h
  refine sat_neg (by simp [(h.next (m := {}) rfl tokIs_semi).1]) ?_
  have h := h.putBack {}
  generalize putBack {} l1 = l2 at *
  refine sat_peekKeyword h.good ?_
  have hk := h.semi_keyword
  have h := h.putBack .kw
  refine fileSemi_go (f := fun r => protoLoopK calm cfg n (acc ++ r.1 ++ [r.2])) h hk (fun _ _ _ => rfl) (fun l3 k3 h5 => ?_)
  obtain ⟨c', h5, h6⟩ := h5
  rw [after_unique hc h5] at hcom
  exact absurd hcom h6

end

end Parser

end Verif
