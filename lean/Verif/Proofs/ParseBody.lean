import Verif.Proofs.ParseReserved

/-!
# Bodies: enum.go, extend.go, service.go
-/

set_option backward.isDefEq.respectTransparency false
set_option backward.dsimp.instances true

namespace Verif
open Spec Scanner Lexer
open M (bind_ok run_get)

variable {sm : Bool}

/-- An error return after which nothing is known of the cursor. -/
structure Bad (sm : Bool) (l : Lexer) (e : Err) (l' : Lexer) : Prop where
  good : Good l'
  err : ErrAt sm l e

theorem Fail.bad {l l' : Lexer} {e : Err} (h : Fail sm l e l') : Bad sm l e l' := by
  obtain ⟨_, ht⟩ := h.took
  exact ⟨ht.good, h.err⟩

instance : ErrRel sm (Bad sm) := ⟨fun h hf => ⟨hf.good, hf.err.trans h⟩, fun h => h.toFail.bad⟩

theorem Sat.stepF {α β : Type} {H : Halt → Prop} {Q : α → Lexer → Prop} {Q' : β → Lexer → Prop}
    {l0 l : Lexer} {ts : List Tok} {m : P α} {f : α → P β} (ht : Took l0 ts l)
    (h : Sat H Q (Fail sm l) (m l)) (hf : ∀ a l', Q a l' → Sat H Q' (Bad sm l0) (f a l')) :
    Sat H Q' (Bad sm l0) ((m >>= f) l) :=
  Sat.bind' h (fun _ _ he => (he.trans ht).bad) hf

/-- A punctuation token is read alike in all modes. -/
theorem next_punct {l : Lexer} {m m' : Mode} (hm : m.comment = false) (hm' : m'.comment = false)
    {c : Char} {t : Token} (hc : isSpace c = false) (h1 : c ≠ '/')
    (h2 : ∀ x, (tokenAt m' (c :: x)).token = t) (h : (nextTok m l).text = [c]) :
    (nextSt m' l).token = t := by
  obtain ⟨g, cs, raw, rest, e1, e2, _, _, e5, _⟩ := lex_lexeme m l.scanner.inp
  have e6 : raw = [c] := e5.symm.trans h
  subst e6
  have := lex_gap (m := m') (rest := c :: rest) (g := g) (cs := cs) (by rw [hm'] ; rw [hm] at e2; exact e2)
  show (lex m' l.scanner.inp).token = t
  rw [e1]
  refine (congrArg LexOut.token this).trans ?_
  show (lex m' (c :: rest)).token = t
  rw [lex_token (by simpa using hc) (by simpa using h1)]
  exact h2 rest

theorem next_rightCurly {l : Lexer} (h : (nextSt .kw l).token = .rightCurly) :
    (nextSt {} l).token = .rightCurly := by
  have g := got_next (m := .kw) rfl h (by simp) (by simp)
  exact next_punct rfl rfl (c := '}') (by decide) (by decide) (fun _ => rfl) (g.punct rfl)

theorem unread_inp (ch : Char) (s : Scanner) : (s.unread ch).inp = ch :: s.inp := rfl

theorem unScan_inp (s : Scanner) : s.unScan.inp = s.raw ++ s.inp ∧ s.unScan.raw = s.raw ∧
    s.unScan.mode = s.mode := by
  have key : ∀ (r : Str) (s : Scanner),
      (r.foldl (fun s ch => s.unread ch) s).inp = r.reverse ++ s.inp ∧
      (r.foldl (fun s ch => s.unread ch) s).raw = s.raw ∧
      (r.foldl (fun s ch => s.unread ch) s).mode = s.mode := by
    intro r
    induction r with
    | nil => intro s; simp
    | cons c r ih =>
      intro s
      simp only [List.foldl_cons]
      obtain ⟨h1, h2, h3⟩ := ih (s.unread c)
      exact ⟨by rw [h1]; simp [unread_inp], h2, h3⟩
  have := key s.raw.reverse s
  simpa [unScan] using this

/-- Putting back is always possible. -/
theorem unNext_good {l : Lexer} (hg : Good l) : ∃ l', unNext l = .ok () l' ∧ Good l' ∧
    l'.scanner.inp = l.scanner.raw ++ l.scanner.inp := by
  obtain ⟨h1, h2, h3⟩ := unScan_inp l.scanner
  refine ⟨_, rfl, ⟨?_, ?_, ?_⟩, h1⟩
  · show NulFree l.scanner.unScan.inp
    rw [h1]; exact nulFree_append.2 ⟨hg.raw, hg.inp⟩
  · show NulFree l.scanner.unScan.raw
    rw [h2]; exact hg.raw
  · show l.scanner.unScan.mode = {}
    rw [h3]; exact hg.mode

/-- With the inline comment set. -/
def Visitee.withInline (c : Comment) : Visitee → Visitee
  | .nil => .nil
  | .comment x => .comment x
  | .importStmt x => .importStmt { x with inlineComment := some c }
  | .package x => .package { x with inlineComment := some c }
  | .option x => .option { x with inlineComment := some c }
  | .message x => .message { x with inlineComment := some c }
  | .enum x => .enum { x with inlineComment := some c }
  | .service x => .service { x with inlineComment := some c }
  | .extend x => .extend { x with inlineComment := some c }
  | .emptyStatement x => .emptyStatement { x with inlineComment := some c }
  | .field x => .field { x with inlineComment := some c }
  | .enumField x => .enumField { x with inlineComment := some c }
  | .oneof x => .oneof { x with inlineComment := some c }
  | .mapField x => .mapField { x with inlineComment := some c }
  | .groupField x => .groupField { x with inlineComment := some c }
  | .reserved x => .reserved { x with inlineComment := some c }
  | .extensions x => .extensions { x with inlineComment := some c }
  | .rpc x => .rpc { x with inlineComment := some c }

/-- With the inline comment set, if there is one. -/
def Visitee.inl (v : Visitee) : Option Comment → Visitee
  | none => v
  | some c => v.withInline c

theorem toks_withInline {G : Gram} {k : Ctx} {v : Visitee} {ts : List Tok} (h : Toks G k v ts)
    (c : Comment) : Toks G k (v.withInline c) ts := by
  cases h with
  | comment => exact .comment _ _
  | empty => exact .empty _ _ _ (by assumption)
  | junk => exact .junk _ _ _ _ (by assumption) (by assumption) (by assumption)
  | nil => exact .nil 
  | importStmt => exact .importStmt _ _ (by assumption)
  | package => exact .package _ _ (by assumption)
  | option => exact .option _ _ _ (by assumption) (by assumption)
  | message => exact .message _ _ _ _ _ (by assumption) (by assumption) (by assumption) (by assumption) (by assumption) (by assumption)
  | group => exact .group _ _ _ _ _ _ _ (by assumption) (by assumption) (by assumption) (by assumption) (by assumption) (by assumption) (by assumption) (by assumption) (by assumption)
  | enum => exact .enum _ _ _ _ _ (by assumption) (by assumption) (by assumption) (by assumption) (by assumption) (by assumption)
  | extend => exact .extend _ _ _ _ _ _ (by assumption) (by assumption) (by assumption) (by assumption) (by assumption) (by assumption)
  | service => exact .service _ _ _ _ (by assumption) (by assumption) (by assumption) (by assumption) (by assumption)
  | field => exact .field _ _ _ (by assumption) (by assumption) (by assumption)
  | enumField => exact .enumField _ _ (by assumption) (by assumption) (by assumption)
  | oneof => exact .oneof _ _ (by assumption)
  | mapField => exact .mapField _ _ (by assumption)
  | reserved => exact .reserved _ _ _ (by assumption) (by assumption)
  | extensions => exact .extensions _ _ (by assumption)
  | rpc => exact .rpc _ _ (by assumption)

theorem toks_inl {G : Gram} {k : Ctx} {v : Visitee} {ts : List Tok} (h : Toks G k v ts)
    (o : Option Comment) : Toks G k (v.inl o) ts := by
  cases o with
  | none => exact h
  | some c => exact toks_withInline h c

theorem com_inl {G : Gram} {b : Bool} {v : Visitee} {is : List Item} (h : Com G b v is)
    (o : Option Comment) : Com G b (v.inl o) is := by
  cases o with
  | none => exact h
  | some c =>
    cases h with
    | plain v _ h => exact .plain _ _ (by cases v <;> exact h)
    | message x body _ h0 h1 h2 => exact .message _ body _ h0 h1 h2
    | noMessage x _ h1 h2 h3 => exact .noMessage _ _ h1 h2 h3
    | group x body _ h0 h1 h2 => exact .group _ body _ h0 h1 h2
    | noGroup x _ h1 h2 h3 => exact .noGroup _ _ h1 h2 h3
    | extend x body _ h0 h1 h2 => exact .extend _ body _ h0 h1 h2
    | noExtend x _ h1 h2 h3 => exact .noExtend _ _ h1 h2 h3
    | enum x body _ h1 h2 => exact .enum _ body _ h1 h2
    | service x body _ h1 h2 => exact .service _ body _ h1 h2
    | oneof x body _ h1 h2 => exact .oneof _ body _ h1 h2
    | extensions x hd a ds h1 h2 h3 => exact .extensions { x with inlineComment := some c } hd a ds h1 h2 h3
    | noDeclarations x _ h1 h2 h3 => exact .noDeclarations _ _ h1 h2 h3
    | rpc x hd body _ h1 h2 h3 => exact .rpc _ hd body _ h1 h2 h3
    | noOptions x _ h1 h2 h3 h4 => exact .noOptions _ _ h1 h2 h3 h4

theorem inlineOf_inl {v : Visitee} (h : inlineOf v = none) (h1 : v ≠ .nil) (h2 : ∀ c, v ≠ .comment c)
    (o : Option Comment) : inlineOf (v.inl o) = o := by
  cases o with
  | none => exact h
  | some c =>
    cases v with
    | nil => exact absurd rfl h1
    | comment c => exact absurd rfl (h2 c)
    | _ => rfl

theorem commentsOf_inl (v : Visitee) (o : Option Comment) : commentsOf (v.inl o) = commentsOf v := by
  cases o with
  | none => rfl
  | some c => cases v <;> rfl

theorem spans_ne {ts : List Tok} {i : Meta} (h : Spans ts i) : ts ≠ [] := by
  obtain ⟨⟨t, us, rfl, _⟩, _⟩ := h; simp

/-- Only comments and the nil element are without tokens. -/
theorem toks_ne {G : Gram} {k : Ctx} {v : Visitee} {ts : List Tok} (h : Toks G k v ts)
    (h1 : v ≠ .nil) (h2 : ∀ c, v ≠ .comment c) : ts ≠ [] := by
  cases h with
  | comment => exact absurd rfl (h2 _)
  | empty => simp
  | junk => simp
  | nil => exact absurd rfl h1
  | importStmt => obtain ⟨_, _, _, _, h⟩ := ‹ImportToks G _ ts›; exact spans_ne h
  | package => obtain ⟨_, _, _, h⟩ := ‹PackageToks _ ts›; exact spans_ne h
  | option => obtain ⟨_, _, _, _, _, h⟩ := ‹OptionToks G _ ts›; exact spans_ne h
  | message => exact spans_ne (by assumption)
  | group => exact spans_ne (by assumption)
  | enum => exact spans_ne (by assumption)
  | extend => exact spans_ne (by assumption)
  | service => exact spans_ne (by assumption)
  | field => obtain ⟨_, _, _, _, _, _, _, _, _, _, h⟩ := ‹FieldToks G _ ts›; exact spans_ne h
  | enumField => obtain ⟨_, _, _, _, _, _, _, _, _, h⟩ := ‹EnumFieldToks G _ ts›; exact spans_ne h
  | oneof => obtain ⟨_, _, _, _, _, _, _, _, h⟩ := ‹OneofToks G _ ts›; exact spans_ne h
  | mapField => obtain ⟨_, _, _, _, _, _, _, _, h⟩ := ‹MapFieldToks G _ ts›; exact spans_ne h
  | reserved =>
    rcases ‹ReservedToks G _ ts› with ⟨_, _, _, _, h⟩ | ⟨_, _, _, _, _, _, h⟩ <;> exact spans_ne h
  | extensions => obtain ⟨_, _, _, _, _, _, _, _, _, h⟩ := ‹ExtensionsToks _ ts›; exact spans_ne h
  | rpc => obtain ⟨_, _, _, _, _, _, _, _, _, _, _, _, h⟩ := ‹RPCToks G _ ts›; exact spans_ne h

theorem body_comments {G : Gram} {k : Ctx} (cs : List Comment) : Body G k (cs.map .comment) [] := by
  induction cs with
  | nil => exact .nil k
  | cons c cs ih => exact .cons k _ [] _ [] (.comment k c) ih (fun _ _ => by simp [Tight, words])

theorem bodyComments_body {G : Gram} {k : Ctx} (cfg : Cfg) (cs : List Comment) :
    Body G k (Parser.bodyComments cfg cs) [] := by
  unfold Parser.bodyComments
  split
  · exact body_comments cs
  · exact .nil k

/-- The tokens that end a block, and the position of the last of them. -/
structure Closed (G : Gram) (cl : List Tok) (q : SPos) : Prop where
  close : Close G cl
  last : ∃ us b, cl = us ++ [b] ∧ b.pos = q.p

/-- The positions of a block. -/
theorem spans_block {G : Gram} {a : Tok} {mid cl : List Tok} {p q : SPos} (h1 : a.pos = p.p)
    (h2 : Closed G cl q) : Spans (a :: mid ++ cl) ⟨p.p, q.p⟩ := by
  obtain ⟨us, b, rfl, h⟩ := h2.last
  simpa using spans_mk (a := a) (mid := mid ++ us) (b := b) (info := ⟨p.p, q.p⟩) h1 h

namespace Parser

theorem maybeScan_sat {H : Halt → Prop} {E : Err → Lexer → Prop} {l : Lexer} (hg : Good l) {v : Visitee}
    (h1 : v ≠ .nil) (h2 : ∀ c, v ≠ .comment c) :
    Sat H (fun r l' => ∃ o, r = v.inl o ∧ Inline l o l') E (maybeScanInlineComment v l) := by
  unfold maybeScanInlineComment
  refine Sat.bind (parseInline_sat hg) (fun c l1 hi => ?_)
  cases c with
  | none => exact ⟨none, rfl, hi⟩
  | some c =>
    refine (?_ : Sat H (fun r l' => r = v.withInline c ∧ l' = l1) E (setInlineComment v c l1)).mono ?_
      (fun _ _ h => h)
    · cases v with
      | nil => exact absurd rfl h1
      | comment x => exact absurd rfl (h2 x)
      | _ => exact ⟨rfl, rfl⟩
    · rintro r l' ⟨h, rfl⟩
      exact ⟨some c, h, hi⟩

/-- Recovery after a failed statement. -/
theorem recoverEmpty_sat {H : Halt → Prop} {B : List Str → Prop} {l l1 : Lexer} {e : Err} (hf : FailC sm B l e l1) :
    Sat H (fun r l' => ∃ ts x, r = .emptyStatement {} ∧ x.text = c!";" ∧ Took l (ts ++ [x]) l' ∧
        l'.token = .semicolon ∧ x.pos = l'.pos.p ∧ B (words ts))
      (Bad sm l) (recoverEmpty e l1) := by
  unfold recoverEmpty
  rcases hf.cut with ⟨ts, l2, h1, h2, hB⟩ | ⟨hs, h1⟩
  · show Sat H _ _ (M.bind unNext _ l1)
    unfold M.bind
    rw [h1]
    refine Sat.bind (Q := fun r l3 => (∃ x, r = .ok () ∧ x.text = c!";" ∧ Took l2 [x] l3 ∧
        l3.token = .semicolon ∧ x.pos = l3.pos.p) ∨
      (∃ e, r = .error e ∧ Fail sm l2 e l3)) (Sat.attempt (readEmptyStatement_sat (sm := sm) h2.good) ?_ ?_) ?_
    · rintro _ l3 ⟨x, h3, h4, _, h5⟩
      exact .inl ⟨x, rfl, h3, h4, h5⟩
    · rintro e l3 ⟨h3, _⟩
      exact .inr ⟨e, rfl, h3⟩
    rintro r l3 (⟨x, rfl, h3, h4, h5, h6⟩ | ⟨e', rfl, h3⟩)
    · exact ⟨ts, x, rfl, h3, h2.trans h4, h5, h6, hB⟩
    · have h3 := h3.trans h2
      exact ⟨h3.bad.good, .pair _ _ hf.err h3.err⟩
  · obtain ⟨_, ht⟩ := hf.took
    obtain ⟨l2, h2, h3, h4⟩ := unNext_good ht.good
    show Sat H _ _ (M.bind unNext _ l1)
    unfold M.bind
    rw [h2]
    have h5 : (nextSt {} l2).token ≠ .semicolon := by
      show (lex {} l2.scanner.inp).token ≠ .semicolon
      rw [h4]; exact h1
    have h6 := readEmptyStatement_eq h3
    rw [if_neg h5] at h6
    show Sat H _ _ (M.bind (M.attempt readEmptyStatement) _ l2)
    unfold M.bind M.attempt
    rw [h6]
    exact ⟨good_putBack h3 _, .first _ _ hs hf.err⟩

theorem recoverEmpty_good {H : Halt → Prop} {l1 : Lexer} {e : Err} (hg : Good l1) :
    Sat H (fun r l' => r = .emptyStatement {} ∧ Good l') (fun _ l' => Good l') (recoverEmpty e l1) := by
  unfold recoverEmpty
  obtain ⟨l2, h2, h3, _⟩ := unNext_good hg
  show Sat H _ _ (M.bind unNext _ l1)
  unfold M.bind
  rw [h2]
  refine Sat.bind (Q := fun r l3 => Good l3)
    (Sat.attempt (readEmptyStatement_sat (sm := true) h3) ?_ ?_) ?_
  · rintro _ l3 ⟨x, _, h4, _⟩
    exact h4.good
  · rintro e l3 ⟨h3, _⟩
    exact h3.bad.good
  rintro r l3 h4
  cases r with
  | ok => exact ⟨rfl, h4⟩
  | error => exact h4

theorem closeBody_sat {H : Halt → Prop} {E : Err → Lexer → Prop} {cfg : Cfg} {cs : List Comment}
    {vs : List Visitee} {il : Option Comment} {l : Lexer} (hg : Good l)
    (hk : (nextSt .kw l).token = .rightCurly) (hnc : NoCom l) :
    Sat H (fun r l' => ∃ cl, r.1 = vs ++ bodyComments cfg cs ∧ r.2.1 = il ∧ ClosedI cfg.gram cl r.2.2 l' ∧ TookI l cl l')
      E (closeBody cfg cs vs il l) := by
  unfold closeBody
  refine sat_next hg ?_
  have hk := next_rightCurly hk
  have g := got_next (m := {}) rfl hk (by simp) (by simp)
  obtain ⟨lost, ht, hl⟩ := next_items hg (m := {}) rfl (real_of hk)
  rw [hl hnc] at ht
  refine Sat.bind (blockLastPos_sat ht.good (g.punct rfl) rfl
    (got_line rfl (by simp) (by simp) g (g.punct rfl) (by decide))) ?_
  rintro q l1 ⟨ts, h1, h2⟩
  exact ⟨_, rfl, rfl, h2, ht.trans h1⟩

theorem ClosedI.closed {G : Gram} {cl : List Item} {q : SPos} {l' : Lexer} (h : ClosedI G cl q l') :
    Closed G (toks cl) q := by
  obtain ⟨t, ⟨js, rfl⟩, h2, _⟩ := h.last
  exact ⟨h.close, toks js, t, by simp [toks_append], h2⟩

/-! ## Blocks and their statements, as streams -/

/-- What is asked of a statement parser. -/
def StmtI (G : Gram) (b : Bool) (k : Ctx) (cs : List Comment) (l : Lexer) (r : Visitee) (l' : Lexer) : Prop :=
  r ≠ .nil ∧ (∀ c, r ≠ .comment c) ∧ inlineOf r = none ∧ (∀ cs', commentsOf r = some cs' → cs' = cs) ∧
    ∃ ts, Toks G k r ts ∧ SegOut G b l r ts l'

theorem semi_out {G : Gram} {b : Bool} {l l' : Lexer} {ts : List Tok} {x : Tok} {v : Visitee}
    (ht : Took l (ts ++ [x]) l') (h1 : l'.token = .semicolon) (h2 : x.pos = l'.pos.p) (hv : Plain v) :
    SegOut G b l v (ts ++ [x]) l' := by
  obtain ⟨seg, k1, k2, k3, _⟩ := ht.seg (real_of h1)
  exact ⟨seg, x, k2, k1, k3, by rw [h2], fun _ _ => .plain _ _ hv⟩

/-- The statements `ws` and the end of the block were read between `l` and `l'`. -/
def LoopI (G : Gram) (b : Bool) (k : Ctx) (ws : List Visitee) (us cl : List Tok) (q : SPos) (l l' : Lexer) : Prop :=
  ∃ is ci, toks is = us ∧ toks ci = cl ∧ (Recd l → ComBody G b k ws is) ∧ ClosedI G ci q l' ∧ TookI l (is ++ ci) l'

theorem loopI_done {cfg : Cfg} {k : Ctx} {l l1 l' : Lexer} {cs : List Comment} {ci : List Item} {q : SPos}
    (ht : TookI l (coms cs) l1) (hc : ClosedI cfg.gram ci q l') (h : TookI l1 ci l') :
    LoopI cfg.gram cfg.bodyIncludingComments k (bodyComments cfg cs) [] (toks ci) q l l' :=
  ⟨coms cs, ci, by simp, rfl, fun _ => .done k cs, hc, ht.trans h⟩

/-- The statement `v` with the comments `cs` and the inline comment `o`, before others. -/
theorem seg_body {G : Gram} {b : Bool} {k : Ctx} {l l1 l2 l3 l' : Lexer} {cs : List Comment} {v : Visitee}
    {ts : List Tok} {ws : List Visitee} {o : Option Comment} {is tl : List Item} (ht : TookI l (coms cs) l1)
    (hnc : NoCom l1) (h1 : v ≠ .nil) (h2 : ∀ c, v ≠ .comment c) (h3 : inlineOf v = none)
    (h4 : ∀ cs', commentsOf v = some cs' → cs' = cs) (h5 : Toks G k v ts) (h6 : SegOut G b l1 v ts l2)
    (ho : Inline l2 o l3) (hb : Recd l3 → ComBody G b k ws is) (h : TookI l3 (is ++ tl) l') :
    ∃ js, (Recd l → ComBody G b k (v.inl o :: ws) js) ∧ toks js = ts ++ toks is ∧ TookI l (js ++ tl) l' := by
  obtain ⟨seg, t, rfl, k2, k3, k4, k5⟩ := h6
  have hbh := (ho.behind k4 h).prefix
  have e := inlineOf_inl h3 h1 h2 o
  refine ⟨_, fun hr => .stmt k (v.inl o) cs seg t ws is (toks_inl h5 o) (com_inl (k5 (ht.recd hr) hnc) o)
    (by rw [commentsOf_inl]; exact h4) (hnc.starts k2 k3.ne) k3 (by rw [e]; exact hbh)
    (hb (((ht.trans k2).trans ho.took).recd hr)), ?_, ?_⟩
  · simp [toks_append]
  · rw [e]
    simpa using (ht.trans k2).trans (ho.took.trans h)

theorem loopI_cons {G : Gram} {b : Bool} {k : Ctx} {l l1 l2 l3 l' : Lexer} {cs : List Comment} {v : Visitee}
    {ts us cl : List Tok} {ws : List Visitee} {q : SPos} {o : Option Comment} (ht : TookI l (coms cs) l1)
    (hnc : NoCom l1) (h1 : v ≠ .nil) (h2 : ∀ c, v ≠ .comment c) (h3 : inlineOf v = none)
    (h4 : ∀ cs', commentsOf v = some cs' → cs' = cs) (h5 : Toks G k v ts) (h6 : SegOut G b l1 v ts l2)
    (ho : Inline l2 o l3) (h : LoopI G b k ws us cl q l3 l') :
    LoopI G b k (v.inl o :: ws) (ts ++ us) cl q l l' := by
  obtain ⟨is, ci, rfl, rfl, k1, k2, k3⟩ := h
  obtain ⟨js, m1, m2, m3⟩ := seg_body ht hnc h1 h2 h3 h4 h5 h6 ho k1 k3
  exact ⟨js, ci, m2, rfl, m1, k2, m3⟩

theorem LoopI.took {G : Gram} {b : Bool} {k : Ctx} {ws : List Visitee} {us cl : List Tok} {q : SPos} {l l' : Lexer}
    (h : LoopI G b k ws us cl q l l') : Took l (us ++ cl) l' := by
  obtain ⟨is, ci, rfl, rfl, _, _, k3⟩ := h
  simpa [toks_append] using k3.took

/-- The block with the tokens `ts` was read between `l` and `l'`; `e` tells if the comments of an empty block are lost. -/
def BlockI (G : Gram) (b : Bool) (k : Ctx) (e : Bool) (r : Parser.Body) (ts : List Tok) (l l' : Lexer) : Prop :=
  ∃ seg t, toks seg = ts ∧ TookI l seg l' ∧ EndsIn t seg ∧ l'.pos.p.line = t.pos.line ∧
    ((∃ body, (e = true → toks body ≠ []) ∧ (Recd l → ComBody G b k r.1 body) ∧ Block r.2.1 body seg) ∨
     (e = true ∧ r.1 = [] ∧ r.2.1 = none ∧ EmptyBlock seg))

theorem BlockI.took {G : Gram} {b : Bool} {k : Ctx} {e : Bool} {r : Parser.Body} {ts : List Tok} {l l' : Lexer}
    (h : BlockI G b k e r ts l l') : Took l ts l' := by
  obtain ⟨seg, t, rfl, h2, _⟩ := h
  exact h2.took

/-- A token that is a right curly is the next token. -/
theorem took_curly {l l' : Lexer} {x : Tok} {ts : List Tok} (h : Took l (x :: ts) l') (hx : x.text = c!"}") :
    (nextSt {} l).token = .rightCurly := by
  obtain ⟨_, ⟨c, h1, _, h2, _⟩, _⟩ := h
  show (lex {} l.scanner.inp).token = _
  rw [h1]
  cases h2 with
  | cons g cs w ts d hg _ _ _ _ =>
    have hx : w = c!"}" := hx
    subst hx
    rw [show g ++ (c!"}" ++ d) ++ l'.scanner.inp = g ++ (c!"}" ++ (d ++ l'.scanner.inp)) by simp,
      lex_gap (m := {}) hg]
    show (lex {} ('}' :: (d ++ l'.scanner.inp))).token = _
    rw [lex_token (by simp; decide) (by simp)]
    rfl

/-- Statements were read before the right curly, as it was not the next token. -/
theorem LoopI.ne {G : Gram} {b : Bool} {k : Ctx} {ws : List Visitee} {us cl : List Tok} {q : SPos} {l l' : Lexer}
    (h : LoopI G b k ws us cl q l l') (hn : (nextSt {} l).token ≠ .rightCurly) : us ≠ [] := by
  rintro rfl
  have ht := h.took
  obtain ⟨is, ci, h1, rfl, _, h2, _⟩ := h
  obtain ⟨x, tl, rfl, hx, _⟩ := h2.head
  exact hn (took_curly ht hx)

/-- The left curly, the comment behind it, and the statements. -/
theorem loopI_block {G : Gram} {b : Bool} {k : Ctx} {e : Bool} {l l1 l2 l3 l' : Lexer} {x : Tok} {us cl : List Tok}
    {o : Option Comment} {r : Parser.Body} (ht : Took l [x] l1) (hk : l1.token = .leftCurly) (hx : x.text = c!"{")
    (hp : x.pos = l1.pos.p) (hi : Inline l1 o l2) (hb : TookI l2 [] l3) (ho : r.2.1 = o)
    (he : e = true → us ≠ []) (h : LoopI G b k r.1 us cl r.2.2 l3 l') : BlockI G b k e r (x :: us ++ cl) l l' := by
  obtain ⟨is, ci, rfl, rfl, k1, k2, k3⟩ := h
  obtain ⟨lost, m1, _⟩ := ht.one (real_of hk)
  have k4 := hb.trans k3
  simp only [List.nil_append] at k4
  have hu : UpTo c!"{" x (coms lost ++ [.tok x]) := ⟨hx, coms lost, rfl, by simp⟩
  obtain ⟨t, j1, j2, j3⟩ := k2.last
  refine ⟨coms lost ++ [.tok x] ++ opt o ++ is ++ ci, t, by simp [toks_append], ?_, j1.append _, j3,
    .inl ⟨is, he, fun hr => k1 (hb.recd ((m1.trans hi.took).recd hr)), ?_⟩⟩
  · simpa using (m1.trans hi.took).trans k4
  · rw [ho]
    exact k2.block hu hi (by rw [hp]) k4

theorem emptyI_block {G : Gram} {b : Bool} {k : Ctx} {l l1 l2 l3 l' : Lexer} {x y : Tok}
    {o : Option Comment} {q : SPos} {tl : List Item} (ht : Took l [x] l1) (hk : l1.token = .leftCurly)
    (hx : x.text = c!"{") (hi : Inline l1 o l2) (hy : Took l2 [y] l3) (hk' : l3.token = .rightCurly)
    (ht' : TookI l3 tl l') (hc : ClosedI G (.tok y :: tl) q l') :
    BlockI G b k true ([], none, q) (x :: toks (.tok y :: tl)) l l' := by
  obtain ⟨lost, m1, _⟩ := ht.one (real_of hk)
  obtain ⟨lost', m2, _⟩ := hy.one (real_of hk')
  obtain ⟨t, j1, j2, j3⟩ := hc.last
  obtain ⟨z, tl', e, hz, hw⟩ := hc.head
  simp only [List.cons.injEq, Item.tok.injEq] at e
  obtain ⟨rfl, rfl⟩ := e
  refine ⟨coms lost ++ [.tok x] ++ opt o ++ coms lost' ++ .tok y :: tl, t, by simp [toks_append], ?_, j1.append _, j3,
    .inr ⟨rfl, rfl, rfl, _, x, o.toList ++ lost', y, tl, ⟨hx, coms lost, rfl, by simp⟩, hz, ?_, hw⟩⟩
  · simpa using ((m1.trans hi.took).trans m2).trans ht'
  · simp [coms_append, opt]

theorem Block.before {o : Option Comment} {body seg : List Item} (h : Block o body seg) {js : List Item}
    (hj : ∀ t ∈ toks js, t.text ≠ c!"{") : Block o body (js ++ seg) := by
  obtain ⟨hd, b, cl, tl, ⟨h1, ks, rfl, h2⟩, h3, rfl, h4, h5⟩ := h
  refine ⟨js ++ (ks ++ [.tok b]), b, cl, tl, ⟨h1, js ++ ks, by simp, ?_⟩, h3, by simp, h4, h5⟩
  rw [toks_append]
  intro t ht
  rcases List.mem_append.1 ht with ht | ht
  · exact hj t ht
  · exact h2 t ht

theorem EmptyBlock.before {seg : List Item} (h : EmptyBlock seg) {js : List Item}
    (hj : ∀ t ∈ toks js, t.text ≠ c!"{") : EmptyBlock (js ++ seg) := by
  obtain ⟨hd, b, lost, cl, tl, ⟨h1, ks, rfl, h2⟩, h3, rfl, h4⟩ := h
  refine ⟨js ++ (ks ++ [.tok b]), b, lost, cl, tl, ⟨h1, js ++ ks, by simp, ?_⟩, h3, by simp, h4⟩
  rw [toks_append]
  intro t ht
  rcases List.mem_append.1 ht with ht | ht
  · exact hj t ht
  · exact h2 t ht

/-- The header and the block of a statement. -/
theorem blockI_out {G : Gram} {b : Bool} {k : Ctx} {e : Bool} {r : Parser.Body} {hd ts : List Tok} {l l1 l' : Lexer}
    {v : Visitee} (ht : Took l hd l1) (hh : ∀ t ∈ hd, t.text ≠ c!"{") (h : BlockI G b k e r ts l1 l')
    (h1 : ∀ body seg, (e = true → toks body ≠ []) → ComBody G b k r.1 body → Block r.2.1 body seg → Com G b v seg)
    (h2 : ∀ seg, e = true → r.1 = [] → r.2.1 = none → EmptyBlock seg → Com G b v seg) :
    SegOut G b l v (hd ++ ts) l' := by
  obtain ⟨hi, m1, rfl⟩ := ht.items
  obtain ⟨seg, t, rfl, k2, k3, k4, k5⟩ := h
  refine ⟨hi ++ seg, t, by rw [toks_append], m1.trans k2, k3.append _, k4, fun hr _ => ?_⟩
  rcases k5 with ⟨body, k0, k5, k6⟩ | ⟨k5, k6, k7, k8⟩
  · exact h1 body _ k0 (k5 (m1.recd hr)) (Block.before k6 hh)
  · exact h2 _ k5 k6 k7 (EmptyBlock.before k8 hh)

/-! ## Enums -/

theorem parseEnumValueOptions_cut {H : Halt → Prop} {cfg : Cfg} {l : Lexer} (hg : Good l) :
    Sat H (fun r l' => ∃ ts, FieldOptions cfg.gram r (words ts) ∧ Took l ts l')
      (FailC (!cfg.permissive) (Begins (FieldOptions cfg.gram)) l) (parseEnumValueOptions cfg l) := by
  unfold parseEnumValueOptions
  refine sat_next hg ?_
  rw [sat_tok]
  refine sat_ite (fun h => ?_) (fun h => ?_)
  · refine sat_unNext ?_
    exact ⟨[], .none, took_putBack hg _⟩
  · have h : (nextSt {} l).token = .leftSquare := by simpa using h
    have g := got_next (m := {}) rfl h (by simp) (by simp)
    have ht := next_took hg (m := {}) rfl (by rw [h]; simp)
    generalize nextSt {} l = l1 at ht g
    generalize nextTok {} l = x1 at ht g
    refine Sat.cut ht (orUnexpected_cut (parseFieldOption_cut ht.good)) ?_ ?_
    · rintro ws _ ⟨s, more, hs⟩
      exact ⟨_, more ++ [c!"]"], by simpa [g.punct rfl] using FieldOptions.some _ _ (.one _ _ hs)⟩
    rintro r l2 ⟨us, h1, h2⟩
    have ht := ht.trans h2
    rw [sat_bound]
    refine Sat.cut ht (fieldOptionsLoop_cut _ ht.good (by omega)) ?_ ?_
    · rintro ws hend hs
      obtain ⟨_, more, hs⟩ := (fieldOptionList_partly h1).1 hend hs
      exact ⟨_, more ++ [c!"]"], by simpa [g.punct rfl] using FieldOptions.some _ _ hs⟩
    rintro r' l3 ⟨s, vs, rfl, h3, h4⟩
    have ht := ht.trans h4
    have h1 := (fieldOptionList_partly h1).2 h3 h4
    refine expect_cut .next rfl (by simp) (by simp) ht ?_ (fun x3 l3 g3 ht => ?_)
    · obtain ⟨_, more, h1⟩ := h1.begins
      exact ⟨_, more ++ [c!"]"], by simpa [g.punct rfl] using FieldOptions.some _ _ h1⟩
    refine ⟨_, ?_, ht⟩
    simpa [g.punct rfl, g3.punct rfl] using
      FieldOptions.some _ _ (h1.whole (fun h => got_not_nil g3 h (by simp)))

theorem parseSign_sat {H : Halt → Prop} {E : Err → Lexer → Prop} {l : Lexer} (hg : Good l) :
    Sat H (fun r l' => ∃ ts, (words ts = [] ∨ words ts = [c!"-"]) ∧ r = (words ts).flatten ∧ Took l ts l')
      E (parseSign l) := by
  unfold parseSign
  show Sat H _ E (M.bind (consumeToken .minus) _ l)
  unfold M.bind
  rw [consumeToken_eq hg]
  by_cases h : (nextSt {} l).token = .minus
  · simp only [h, if_true]
    rw [sat_tok, if_pos h]
    have g := got_next (m := {}) rfl h (by simp) (by simp)
    refine ⟨_, ?_, ?_, next_took hg (m := {}) rfl (by rw [h]; simp)⟩
    · exact .inr (by simp [g.punct rfl])
    · simp [g.punct rfl]
  · simp only [h, if_false]
    rw [sat_tok, if_neg (by simp [putBack])]
    exact ⟨[], .inl rfl, rfl, took_putBack hg _⟩

/-- The word lists that begin an enum value, but are none. -/
def BegunEnum (G : Gram) (ws : List Str) : Prop :=
  ∃ ts more, words ts = ws ++ more ∧ more ≠ [] ∧ ∃ x, EnumFieldToks G x ts

theorem begunEnum {G : Gram} {nm w : Str} {sg os : List Str} {opts : List FieldOption} (h1 : Word nm)
    (h2 : sg = [] ∨ sg = [c!"-"]) (h3 : IntLit w) (h4 : FieldOptions G opts os) {vs more : List Str} (hm : more ≠ [])
    (h : nm :: c!"=" :: sg ++ w :: os ++ [c!";"] = vs ++ more) : BegunEnum G vs := by
  obtain ⟨ts, info, h5⟩ := written_some (ws := nm :: c!"=" :: sg ++ w :: os ++ [c!";"]) (by simp)
  exact ⟨ts, more, h5.1.trans h, hm, ⟨nm, sg.flatten ++ w, opts, [], none, info⟩, h1, sg, w, os, h2, h3, rfl, h4, h5⟩

theorem parseEnumField_cut {H : Halt → Prop} {cfg : Cfg} {l : Lexer} (hg : Good l) :
    Sat H (fun r l' => ∃ ts, EnumFieldToks cfg.gram r ts ∧ Took l ts l')
      (FailC (!cfg.permissive) (BegunEnum cfg.gram) l) (parseEnumField cfg l) := by
  unfold parseEnumField
  refine expect_cut .next rfl (by simp) (by simp) (Took.refl hg) (?_) (fun x1 l1 g1 ht => ?_)
  · exact begunEnum word_a (.inl rfl) int_one .none (more := [c!"a", c!"=", c!"1", c!";"]) (by simp) (by simp)
  have hw : Word x1.text := g1.reads.1
  rw [sat_position, sat_txt]
  refine expect_cut .next rfl (by simp) (by simp) ht (?_) (fun x2 l2 g2 ht => ?_)
  · exact begunEnum hw (.inl rfl) int_one .none (more := [c!"=", c!"1", c!";"]) (by simp) (by simp)
  refine Sat.bind (parseSign_sat ht.good) ?_
  rintro sg l3 ⟨ss, h1, rfl, h3⟩
  have ht := ht.trans h3
  refine expect_cut (.with_ _) rfl (by simp) (by simp) ht (?_) (fun x4 l4 g4 ht => ?_)
  · exact begunEnum hw h1 int_one .none (more := [c!"1", c!";"]) (by simp) (by simp [g2.punct rfl])
  have hi : IntLit x4.text := g4.reads
  rw [sat_txt]
  refine Sat.cut ht (parseEnumValueOptions_cut ht.good) ?_ ?_
  · rintro ws _ ⟨s, more, hs⟩
    exact begunEnum hw h1 hi hs (more := more ++ [c!";"]) (by simp) (by simp [g2.punct rfl])
  rintro os l5 ⟨us, h4, h5⟩
  have ht := ht.trans h5
  refine expect_cut .next rfl (by simp) (by simp) ht (?_) (fun x6 l6 g6 ht => ?_)
  · exact begunEnum hw h1 hi h4 (more := [c!";"]) (by simp) (by simp [g2.punct rfl])
  rw [sat_position]
  refine ⟨_, ⟨by rw [← g1.text]; exact g1.reads.1, words ss, l4.text, words us, h1,
    by rw [← g4.text]; exact g4.reads, rfl, h4, ?_, ?_⟩, ht⟩
  · simp [g1.text, g2.punct rfl, g4.text, g6.punct rfl]
  · simpa using spans_mk (a := x1) (mid := [x2] ++ ss ++ [x4] ++ us) (b := x6)
      (info := ⟨l1.pos.p, l6.pos.p⟩) g1.pos g6.pos

theorem enumFieldToks_head {G : Gram} {x : EnumField} {ts : List Tok} (h : EnumFieldToks G x ts) :
    ∃ w us, words ts = w :: us ∧ Word w := by
  obtain ⟨h1, _, _, _, _, _, _, _, h2, _⟩ := h
  exact ⟨_, _, h2, h1⟩

theorem enumStmt_sat {H : Halt → Prop} {cfg : Cfg} {cs : List Comment} {t : Token} {l : Lexer} (hg : Good l)
    (ht : t = (nextSt .kw l).token) :
    Sat H (StmtI cfg.gram cfg.bodyIncludingComments .enum cs l)
      (Bad (!cfg.permissive) l) (enumStmt cfg cs t l) := by
  unfold enumStmt
  refine sat_ite (fun h => ?_) (fun h1 => ?_)
  · refine Sat.stepR (Took.refl hg) ((parseOption_sat hg).and (parseOption_ends _ _)) ?_
    rintro o l1 ⟨⟨ts, h1, h2⟩, he⟩
    exact ⟨by simp, by simp, he.inline, by simp [commentsOf], ts, .option _ _ _ (by simp) h1,
      ended_out h2 (optionToks_spans h1) he trivial⟩
  refine sat_ite (fun h => ?_) (fun h2 => ?_)
  · refine Sat.stepF (Took.refl hg) ((parseReserved_sat (G := cfg.gram) rfl hg).and (parseReserved_ends _)) ?_
    rintro o l1 ⟨⟨ts, h1, h2⟩, he⟩
    exact ⟨by simp, by simp, he.inline, by simp [commentsOf], ts, .reserved _ _ _ (by simp) h1,
      ended_out h2 (reservedToks_spans h1) he trivial⟩
  · refine Sat.bind (Q := fun r l1 => (∃ x ts, r = .ok x ∧ EnumFieldToks cfg.gram x ts ∧ Took l ts l1 ∧
          Ended x.info x.inlineComment l1) ∨
        (∃ e, r = .error e ∧ FailC (!cfg.permissive) (BegunEnum cfg.gram) l e l1))
      (Sat.attempt ((parseEnumField_cut hg).and (parseEnumField_ends _ _)) ?_ ?_) ?_
    · rintro x l1 ⟨⟨ts, h3, h4⟩, he⟩
      exact .inl ⟨x, ts, rfl, h3, h4, he⟩
    · rintro e l1 h
      exact .inr ⟨e, rfl, h⟩
    rintro r l1 (⟨x, ts, rfl, h3, h4, hE⟩ | ⟨e, rfl, hf⟩)
    · have hw : ∀ w, x.ident = w → Word x.ident → (nextSt .kw l).token = wordToken .kw w := by
        rintro w rfl hw
        obtain ⟨_, sg, w, os, _, _, _, _, h5, _⟩ := h3
        exact (took_first h4 h5 hw (m := .kw) rfl).1
      refine ⟨by simp, by simp, hE.inline, by simp [commentsOf], ts, .enumField _ _ h3 ?_ ?_,
        ended_out h4 (enumFieldToks_spans h3) hE trivial⟩
      · intro he
        exact h1 (ht.trans (hw _ he h3.1))
      · intro he
        exact h2 (ht.trans (hw _ he h3.1))
    · refine (recoverEmpty_sat hf).mono ?_ (fun _ _ h => h)
      rintro r l2 ⟨ts, x, rfl, h3, h4, h5, h6, us, more, k1, k2, y, k3⟩
      refine ⟨by simp, by simp, rfl, by simp [commentsOf], _, .junk _ _ _ _ rfl ⟨us, more, k1, k2, ⟨y, k3⟩, ?_⟩ h3,
        semi_out h4 h5 h6 trivial⟩
      intro w hw
      obtain ⟨v, vs, e, hv⟩ := enumFieldToks_head k3
      cases hts : words ts with
      | nil => rw [hts] at hw; simp at hw
      | cons u us =>
        rw [hts] at hw
        have hu : u = w := by simpa using hw
        rw [k1, hts] at e
        simp only [List.cons_append, List.cons.injEq] at e
        obtain ⟨rfl, _⟩ := e
        subst hu
        have := (took_first (us := us ++ [x.text]) h4 (by simp [hts]) hv (m := .kw) rfl).1
        refine ⟨fun he => ?_, fun he => ?_⟩
        · subst he
          exact h1 (ht.trans this)
        · subst he
          exact h2 (ht.trans this)

/-- The outcome of the loop over the statements of a body, given those read before. -/
def LoopOut (cfg : Cfg) (k : Ctx) (il : Option Comment) (l : Lexer) (vs : List Visitee) (r : Parser.Body)
    (l' : Lexer) : Prop :=
  ∃ ws us cl, r.1 = vs ++ ws ∧ r.2.1 = il ∧ Spec.Body cfg.gram k ws us ∧ Closed cfg.gram cl r.2.2 ∧
    LoopI cfg.gram cfg.bodyIncludingComments k ws us cl r.2.2 l l'

theorem loopOut_cons {cfg : Cfg} {k : Ctx} {il : Option Comment} {l l1 l2 l3 l' : Lexer} {cs : List Comment}
    {vs : List Visitee} {v : Visitee} {r : Parser.Body} {o : Option Comment} (ht : TookI l (coms cs) l1)
    (hnc : NoCom l1) (h1 : StmtI cfg.gram cfg.bodyIncludingComments k cs l1 v l2) (ho : Inline l2 o l3)
    (h : LoopOut cfg k il l3 (vs ++ [v.inl o]) r l') : LoopOut cfg k il l vs r l' := by
  obtain ⟨ws, us, cl, h2, h3, h4, h5, h6⟩ := h
  obtain ⟨k1, k2, k3, k4, ts, k5, k6⟩ := h1
  exact ⟨v.inl o :: ws, ts ++ us, cl, by simp [h2], h3, (.cons _ _ _ _ _ (toks_inl k5 o) h4 (by simp [Cfg.gram])), h5,
    loopI_cons ht hnc k1 k2 k3 k4 k5 k6 ho h6⟩

theorem stmtI_step {G : Gram} {b : Bool} {k : Ctx} {l l1 l2 l3 : Lexer} {cs : List Comment} {v : Visitee}
    {o : Option Comment} (ht : TookI l (coms cs) l1) (h1 : StmtI G b k cs l1 v l2) (ho : Inline l2 o l3) :
    ∃ ts, Took l ts l3 ∧ ts ≠ [] := by
  obtain ⟨k1, k2, k3, k4, ts, k5, k6⟩ := h1
  refine ⟨ts, ?_, toks_ne k5 k1 k2⟩
  simpa using (ht.took.trans k6.took).trans ho.took.took

theorem enumLoop_sat {H : Halt → Prop} {cfg : Cfg} {il : Option Comment} (n : Nat) :
    ∀ {l : Lexer} {vs : List Visitee}, Good l → l.scanner.inp.length < n →
    Sat H (LoopOut cfg .enum il l vs) (Bad (!cfg.permissive) l) (enumLoop cfg il n vs l) := by
  induction n with
  | zero => intro _ _ _ h; omega
  | succ n ih =>
    intro l vs hg hn
    unfold enumLoop
    refine stepI_comments (TookI.refl hg) (fun cs l1 ht hnc => ?_)
    simp only [List.nil_append] at ht
    refine sat_peekKeyword ht.good ?_
    have hb := back_putBack ht.good .kw
    have hnc := hnc.back hb
    have ht := ht.back hb
    refine sat_ite (fun h => ?_) (fun h => ?_)
    · refine (closeBody_sat ht.good (by rw [hb.token]; exact h) hnc).mono ?_ (fun _ _ h => h)
      rintro r l' ⟨cl, h1, h2, h3, h4⟩
      exact ⟨_, [], _, h1, h2, bodyComments_body _ _, h3.closed, loopI_done ht h3 h4⟩
    · refine Sat.step ht.took (enumStmt_sat ht.good (by rw [hb.token])) ?_
      rintro v l2 hv
      obtain ⟨h1, h2, _, _, _, _, h3⟩ := id hv
      refine Sat.bind (maybeScan_sat h3.took.good h1 h2) ?_
      rintro v' l3 ⟨o, rfl, ho⟩
      obtain ⟨us, htk, hne⟩ := stmtI_step ht hv ho
      have hl := htk.length
      have : 0 < us.length := List.length_pos_iff.2 hne
      refine (Sat.tail (E := Bad (!cfg.permissive)) htk (ih htk.good (by omega))).mono ?_ (fun _ _ h => h)
      intro r l' h
      exact loopOut_cons ht hnc hv ho h

theorem parseEnum_sat {H : Halt → Prop} {cfg : Cfg} {k : Ctx} (hk : k = .file ∨ k = .message) {l : Lexer}
    (hg : Good l) :
    Sat H (fun r l' => r.inlineComment = none ∧ ∃ ts, (∀ cs, Toks cfg.gram k (.enum { r with comments := cs }) ts) ∧
        ∀ cs, SegOut cfg.gram cfg.bodyIncludingComments l (.enum { r with comments := cs }) ts l')
      (Bad (!cfg.permissive) l) (parseEnum cfg l) := by
  unfold parseEnum
  refine step_expect (.with_ .kw) rfl (by simp) (by simp) (Took.refl hg) (fun x1 l1 g1 ht => ?_)
  rw [sat_position]
  refine step_expect .next rfl (by simp) (by simp) ht (fun x2 l2 g2 ht => ?_)
  rw [sat_txt]
  have hh : ∀ t ∈ [] ++ [x1] ++ [x2], t.text ≠ c!"{" := by
    intro t h
    simp only [List.nil_append, List.cons_append, List.mem_cons, List.not_mem_nil, or_false] at h
    rcases h with rfl | rfl
    · rw [g1.kw rfl]; decide
    · exact word_ne g2.reads.1 curly_not_word
  refine Sat.bind (Q := fun r l' => ∃ x3 us cl, x3.text = c!"{" ∧ Spec.Body cfg.gram .enum r.1 us ∧
      Closed cfg.gram cl r.2.2 ∧ BlockI cfg.gram cfg.bodyIncludingComments .enum false r (x3 :: us ++ cl) l2 l') ?_ ?_
  · unfold parseEnumBody
    refine step_expect .next rfl (by simp) (by simp) ht (fun x3 l3 g3 ht3 => ?_)
    refine Sat.bind (parseInline_sat ht3.good) (fun c l4 hi => ?_)
    have ht4 := ht3.nil_trans hi.nil
    rw [sat_bound]
    refine (Sat.tail (E := Bad (!cfg.permissive)) ht4 (enumLoop_sat _ ht4.good (by omega))).mono ?_ (fun _ _ h => h)
    rintro r l' ⟨ws, us, cl, h1, h2, h3, h4, h5⟩
    simp only [List.nil_append] at h1
    subst h1
    exact ⟨x3, us, cl, g3.punct rfl, h3, h4, loopI_block (g3.took ht.good) g3.token (g3.punct rfl) g3.pos hi
      (TookI.refl hi.took.good) h2 (by simp) h5⟩
  · rintro ⟨b, c, q⟩ l3 ⟨x3, us, cl, h1, h2, h3, hbi⟩
    refine ⟨rfl, [x1, x2, x3] ++ us ++ cl, fun cs => .enum k _ [x1, x2, x3] us cl hk ?_ ?_ h2 h3.close ?_, fun cs => ?_⟩
    · simp [g1.kw rfl, g2.text, h1]
    · show Word l2.text
      rw [← g2.text]; exact g2.reads.1
    · simpa using spans_block (mid := [x2, x3] ++ us) g1.pos h3
    · simpa using blockI_out (v := .enum _) ht hh hbi (fun body seg _ h1 h2 => .enum _ body seg h1 h2) (by simp)

/-! ## Extends -/

theorem fullIdent_ne {s : Str} {ws : List Str} (h : FullIdent s ws) : ∀ w ∈ ws, w ≠ c!"{" := by
  induction h with
  | one w h =>
    intro v hv
    simp only [List.mem_singleton] at hv
    subst hv
    exact word_ne h curly_not_word
  | more w s ws h _ ih =>
    intro v hv
    simp only [List.mem_cons] at hv
    rcases hv with rfl | rfl | hv
    · exact word_ne h curly_not_word
    · decide
    · exact ih v hv

theorem messageType_ne {s : Str} {ws : List Str} (h : MessageType s ws) : ∀ w ∈ ws, w ≠ c!"{" := by
  cases h with
  | plain _ _ h => exact fullIdent_ne h
  | dot _ _ h =>
    intro w hw
    rcases List.mem_cons.1 hw with rfl | hw
    · decide
    · exact fullIdent_ne h w hw


theorem extendStmt_sat {H : Halt → Prop} {cfg : Cfg} {cs : List Comment} {l : Lexer} (hg : Good l) :
    Sat H (StmtI cfg.gram cfg.bodyIncludingComments .extend cs l)
      (Bad (!cfg.permissive) l) (extendStmt cfg cs l) := by
  unfold extendStmt
  refine Sat.bind (Q := fun r l1 => (∃ x ts, r = .ok x ∧ FieldToks cfg.gram x ts ∧ Took l ts l1 ∧
        Ended x.info x.inlineComment l1) ∨
      (∃ e, r = .error e ∧ FailC (!cfg.permissive) (BegunField cfg.gram) l e l1))
    (Sat.attempt ((parseField_cut hg).and (parseField_ends _ _)) ?_ ?_) ?_
  · rintro x l1 ⟨⟨ts, h3, h4⟩, he⟩
    exact .inl ⟨x, ts, rfl, h3, h4, he⟩
  · rintro e l1 h
    exact .inr ⟨e, rfl, h⟩
  rintro r l1 (⟨x, ts, rfl, h3, h4, hE⟩ | ⟨e, rfl, hf⟩)
  · exact ⟨by simp, by simp, hE.inline, by simp [commentsOf], ts, .field _ _ _ (by simp) h3 (by simp),
      ended_out h4 (fieldToks_spans h3) hE trivial⟩
  · refine (recoverEmpty_sat hf).mono ?_ (fun _ _ h => h)
    rintro r l2 ⟨ts, x, rfl, h3, h4, h5, h6, us, more, k1, k2, k3⟩
    exact ⟨by simp, by simp, rfl, by simp [commentsOf], _, .junk _ _ _ _ rfl ⟨us, more, k1, k2, k3⟩ h3,
      semi_out h4 h5 h6 trivial⟩

theorem extendLoop_sat {H : Halt → Prop} {cfg : Cfg} {il : Option Comment} (n : Nat) :
    ∀ {l : Lexer} {vs : List Visitee}, Good l → l.scanner.inp.length < n →
    Sat H (LoopOut cfg .extend il l vs) (Bad (!cfg.permissive) l) (extendLoop cfg il n vs l) := by
  induction n with
  | zero => intro _ _ _ h; omega
  | succ n ih =>
    intro l vs hg hn
    unfold extendLoop
    refine stepI_comments (TookI.refl hg) (fun cs l1 ht hnc => ?_)
    simp only [List.nil_append] at ht
    refine sat_peekKeyword ht.good ?_
    have hb := back_putBack ht.good .kw
    have hnc := hnc.back hb
    have ht := ht.back hb
    refine sat_ite (fun h => ?_) (fun h => ?_)
    · refine (closeBody_sat ht.good (by rw [hb.token]; exact h) hnc).mono ?_ (fun _ _ h => h)
      rintro r l' ⟨cl, h1, h2, h3, h4⟩
      exact ⟨_, [], _, h1, h2, bodyComments_body _ _, h3.closed, loopI_done ht h3 h4⟩
    · refine Sat.step ht.took (extendStmt_sat ht.good ) ?_
      rintro v l2 hv
      obtain ⟨h1, h2, _, _, _, _, h3⟩ := id hv
      refine Sat.bind (maybeScan_sat h3.took.good h1 h2) ?_
      rintro v' l3 ⟨o, rfl, ho⟩
      obtain ⟨us, htk, hne⟩ := stmtI_step ht hv ho
      have hl := htk.length
      have : 0 < us.length := List.length_pos_iff.2 hne
      refine (Sat.tail (E := Bad (!cfg.permissive)) htk (ih htk.good (by omega))).mono ?_ (fun _ _ h => h)
      intro r l' h
      exact loopOut_cons ht hnc hv ho h

theorem parseExtend_sat {H : Halt → Prop} {cfg : Cfg} {k : Ctx} (hk : k = .file ∨ k = .message) {l : Lexer}
    (hg : Good l) :
    Sat H (fun r l' => r.inlineComment = none ∧ ∃ ts, (∀ cs, Toks cfg.gram k (.extend { r with comments := cs }) ts) ∧
        ∀ cs, SegOut cfg.gram cfg.bodyIncludingComments l (.extend { r with comments := cs }) ts l')
      (Bad (!cfg.permissive) l) (parseExtend cfg l) := by
  unfold parseExtend
  refine step_expect (.with_ .kw) rfl (by simp) (by simp) (Took.refl hg) (fun x1 l1 g1 ht => ?_)
  rw [sat_position]
  refine Sat.stepR ht (readMessageType_sat ht.good) ?_
  rintro ⟨ty, q0⟩ l2 ⟨ms, h0, h0', _⟩
  have ht := ht.trans h0'
  refine Sat.bind (Q := fun r l' => ∃ x3 us cl, x3.text = c!"{" ∧ Spec.Body cfg.gram .extend r.1 us ∧
      MessageType ty (words ms) ∧ Closed cfg.gram cl r.2.2 ∧
      BlockI cfg.gram cfg.bodyIncludingComments .extend true r (x3 :: us ++ cl) l2 l') ?_ ?_
  · unfold parseExtendBody
    refine step_expect .next rfl (by simp) (by simp) ht (fun x3 l3 g3 ht3 => ?_)
    have h0 : MessageType ty (words ms) := h0.whole (fun h => got_not_nil g3 h (by simp))
    refine Sat.bind (parseInline_sat ht3.good) (fun c l4 hi => ?_)
    have ht4 := ht3.nil_trans hi.nil
    refine sat_next ht4.good ?_
    rw [sat_tok]
    refine sat_ite (fun h => ?_) (fun h => ?_)
    · have g := got_next (m := {}) rfl h (by simp) (by simp)
      have ht5 := next_took ht4.good (m := {}) rfl (by rw [h]; simp)
      refine Sat.bind (blockLastPos_sat ht5.good (g.punct rfl) rfl
        (got_line rfl (by simp) (by simp) g (g.punct rfl) (by decide))) ?_
      rintro q l5 ⟨ts, h1, h2⟩
      exact ⟨x3, [], _, g3.punct rfl, .nil _, h0, h2.closed,
        emptyI_block (g3.took ht.good) g3.token (g3.punct rfl) hi ht5 h h1 h2⟩
    · refine sat_unNext ?_
      have hbk := back_putBack ht4.good {}
      have ht5 := ht4.nil_trans (hbk.took ht4.good)
      rw [sat_bound]
      refine (Sat.tail (E := Bad (!cfg.permissive)) ht5 (extendLoop_sat _ ht5.good (by omega))).mono ?_ (fun _ _ h => h)
      rintro r l' ⟨ws, us, cl, h1, h2, h3, h4, h5⟩
      simp only [List.nil_append] at h1
      subst h1
      exact ⟨x3, us, cl, g3.punct rfl, h3, h0, h4, loopI_block (g3.took ht.good) g3.token (g3.punct rfl) g3.pos hi
        (hbk.tookI ht4.good) h2 (fun _ => h5.ne (by rw [hbk.token]; exact h)) h5⟩
  · rintro ⟨b, c, q⟩ l3 ⟨x3, us, cl, h1, h2, h0, h3, hbi⟩
    refine ⟨rfl, x1 :: ms ++ [x3] ++ us ++ cl, fun cs => .extend k _ (words ms) (x1 :: ms ++ [x3]) us cl hk h0 ?_ h2 h3.close ?_, fun cs => ?_⟩
    · simp [g1.kw rfl, h1]
    · simpa using spans_block (mid := ms ++ [x3] ++ us) g1.pos h3
    · have hh : ∀ t ∈ [] ++ [x1] ++ ms, t.text ≠ c!"{" := by
        intro t h
        simp only [List.nil_append, List.mem_append, List.mem_singleton] at h
        rcases h with rfl | h
        · rw [g1.kw rfl]; decide
        · exact messageType_ne h0 _ (List.mem_map_of_mem h)
      simpa using blockI_out (v := .extend _) ht hh hbi (fun body seg h0 h1 h2 => .extend _ body seg (h0 rfl) h1 h2) (fun seg _ h1 h2 h3 => .noExtend _ seg h1 h2 h3)

/-! ## Services -/

theorem rpcMessage_ne {x : RPCMessage} {ts : List Tok} (h : RPCMessageToks x ts) : ∀ t ∈ ts, t.text ≠ c!"{" := by
  obtain ⟨ws, h1, _, h2, _⟩ := h
  intro t ht
  have : t.text ∈ words ts := List.mem_map_of_mem ht
  rw [h2] at this
  simp only [List.cons_append, List.mem_cons, List.mem_append, List.not_mem_nil, or_false] at this
  rcases this with e | (e | e) | e
  · rw [e]; decide
  · split at e
    · simp only [List.mem_singleton] at e
      rw [e]; decide
    · simp at e
  · exact messageType_ne h1 _ e
  · rw [e]; decide

theorem parseRPCMessage_sat {H : Halt → Prop} {l : Lexer} (hg : Good l) :
    Sat H (fun r l' => ∃ ts, RPCMessageToks r ts ∧ Took l ts l') (FailR sm l) (parseRPCMessage l) := by
  unfold parseRPCMessage
  refine step_expect .next rfl (by simp) (by simp) (Took.refl hg) (fun x1 l1 g1 ht => ?_)
  rw [sat_position]
  refine sat_nextWith ht.good ?_
  rw [sat_tok]
  refine sat_ite (fun h => ?_) (fun h => ?_)
  · refine sat_unNext ?_
    have hb := back_putBack ht.good .kw
    have ht := ht.nil_trans (hb.took ht.good)
    refine Sat.stepR ht (readMessageType_sat ht.good) ?_
    rintro ⟨ty, q0⟩ l2 ⟨ms, h0, h1, _⟩
    have ht := ht.trans h1
    refine step_expect .next rfl (by simp) (by simp) ht (fun x3 l3 g3 ht => ?_)
    have h0 : MessageType ty (words ms) := h0.whole (fun h => got_not_nil g3 h (by simp))
    rw [sat_position]
    refine ⟨_, ⟨words ms, h0, ?_, by simp [g1.punct rfl, g3.punct rfl], ?_⟩, ht⟩
    · rintro - hw
      obtain ⟨w, us, e, hx⟩ := messageType_head h0
      rw [e] at hw
      simp only [List.head?_cons, Option.some.injEq] at hw
      subst hw
      rcases hx with hx | hx
      · simp at hx
      · have := (took_first h1 e hx (m := .kw) rfl).1
        rw [hb.token] at this
        exact h this
    · simpa using spans_mk (a := x1) (mid := ms) (b := x3) (info := ⟨l1.pos.p, l3.pos.p⟩) g1.pos g3.pos
  · have h : (nextSt .kw l1).token = .kStream := by simpa using h
    have g := got_next (m := .kw) rfl h (by simp) (by simp)
    have ht := ht.trans (next_took ht.good (m := .kw) rfl (by rw [h]; simp))
    generalize nextSt .kw l1 = l2 at ht g
    generalize nextTok .kw l1 = x2 at ht g
    refine Sat.stepR ht (readMessageType_sat ht.good) ?_
    rintro ⟨ty, q0⟩ l3 ⟨ms, h0, h1, _⟩
    have ht := ht.trans h1
    refine step_expect .next rfl (by simp) (by simp) ht (fun x4 l4 g4 ht => ?_)
    have h0 : MessageType ty (words ms) := h0.whole (fun h => got_not_nil g4 h (by simp))
    rw [sat_position]
    refine ⟨_, ⟨words ms, h0, by simp, by simp [g1.punct rfl, g4.punct rfl, g.kw rfl], ?_⟩, ht⟩
    simpa using spans_mk (a := x1) (mid := x2 :: ms) (b := x4) (info := ⟨l1.pos.p, l4.pos.p⟩) g1.pos g4.pos

theorem rpcOptionsStmt_sat {H : Halt → Prop} {cfg : Cfg} {l : Lexer} (hg : Good l) :
    Sat H (fun r l' => ∃ ts, RPCOptions cfg.gram r ts ∧ Took l ts l' ∧
        (ts = [] → (nextSt {} l').token = .rightCurly) ∧ ∀ o ∈ r, o.comments = [] ∧ o.inlineComment = none)
      (Fail (!cfg.permissive) l) (rpcOptionsStmt cfg l) := by
  unfold rpcOptionsStmt
  refine sat_peekKeyword hg ?_
  have hb := back_putBack hg .kw
  have ht := hb.took hg
  refine sat_ite (fun h => ?_) (fun h1 => ?_)
  · refine Sat.stepR ht (parseOption_plain ht.good) ?_
    rintro o l1 ⟨⟨ts, h1, h2⟩, h0⟩
    refine ⟨ts, by simpa using RPCOptions.option _ _ _ _ h1 .nil, by simpa using ht.trans h2, ?_, by simpa using h0⟩
    rintro rfl
    obtain ⟨_, _, _, _, h, _⟩ := h1
    simp at h
  refine sat_ite (fun h => ?_) (fun h2 => ?_)
  · exact ⟨[], .nil, ht, fun _ => by rw [hb.token]; exact next_rightCurly h, nofun⟩
  · refine Sat.step ht ((readEmptyStatement_sat (sm := !cfg.permissive) ht.good).mono (fun _ _ h => h)
      (fun _ _ h => h.1)) ?_
    rintro _ l1 ⟨x, h3, h4, _⟩
    exact ⟨[x], .empty x _ _ h3 .nil, by simpa using ht.trans h4, by simp, fun _ h => absurd h List.not_mem_nil⟩

theorem rpcOptions_append {G : Gram} {a b : List OptionStmt} {us vs : List Tok} (h1 : RPCOptions G a us)
    (h2 : RPCOptions G b vs) : RPCOptions G (a ++ b) (us ++ vs) := by
  induction h1 with
  | nil => simpa using h2
  | option x ts xs ts' h _ ih => simpa using RPCOptions.option x ts _ _ h ih
  | empty t xs ts h _ ih => simpa using RPCOptions.empty t _ _ h ih

theorem rpcOptionsLoop_sat {H : Halt → Prop} {cfg : Cfg} (n : Nat) :
    ∀ {l : Lexer} {acc : List OptionStmt}, Good l → l.scanner.inp.length < n →
    Sat H (fun r l' => ∃ os us x, r = acc ++ os ∧ RPCOptions cfg.gram os us ∧ x.text = c!"}" ∧
        x.pos = l'.pos.p ∧ Took l (us ++ [x]) l' ∧ l'.token = .rightCurly ∧ l'.scanner.pos.p.line = x.pos.line ∧
        ∀ o ∈ os, o.comments = [] ∧ o.inlineComment = none)
      (Fail (!cfg.permissive) l) (rpcOptionsLoop cfg n acc l) := by
  induction n with
  | zero => intro _ _ _ h; omega
  | succ n ih =>
    intro l acc hg hn
    unfold rpcOptionsLoop
    refine Sat.step (Took.refl hg) (rpcOptionsStmt_sat hg) ?_
    rintro os l1 ⟨ts, h1, ht, h2, h0⟩
    refine sat_next ht.good ?_
    rw [sat_tok]
    refine sat_ite (fun h => ?_) (fun h => ?_)
    · have g := got_next (m := {}) rfl h (by simp) (by simp)
      have ht := ht.trans (next_took ht.good (m := {}) rfl (by rw [h]; simp))
      exact ⟨os, ts, _, rfl, h1, g.punct rfl, rfl, ht, h,
        got_line rfl (by simp) (by simp) g (g.punct rfl) (by decide), h0⟩
    · have hne : ts ≠ [] := fun h' => h (h2 h')
      have : 0 < ts.length := List.length_pos_iff.2 hne
      refine sat_unNext ?_
      have ht := ht.nil_trans (took_putBack ht.good {})
      have hl := ht.length
      refine (Sat.tail (E := Fail (!cfg.permissive)) ht (ih ht.good (by omega))).mono ?_ (fun _ _ h => h)
      rintro r l' ⟨os', us, x, rfl, h3, h4, h5, h6, h7, h8, h9⟩
      refine ⟨os ++ os', ts ++ us, x, by simp, rpcOptions_append h1 h3, h4, h5, by simpa using ht.trans h6, h7, h8, ?_⟩
      intro o ho
      rcases List.mem_append.1 ho with ho | ho
      · exact h0 o ho
      · exact h9 o ho

/-- The comments recorded between the first token `x` and the last token `y` of a statement. -/
theorem header_exact {l l1 l2 : Lexer} {ts : List Tok} {x y : Tok} {seg : List Item} {a b : SPos} (hr : Recd l)
    (ht : Took l ts l1) (h2 : TookI l seg l2) (he : toks seg = ts)
    (hi : l2.scanner.inp = l1.scanner.inp) (hs : Starts seg) (hy : EndsIn y seg)
    (hx : ∃ us, us ≠ [] ∧ ts = x :: us) (ha : a.p = x.pos) (hb : b.p = y.pos) :
    (l1.findMidComments a b).map (fun c => mkComment c.literal c.pos) = commentsIn seg := by
  obtain ⟨t, mid, rfl⟩ := hs
  obtain ⟨us, hu, rfl⟩ := hx
  simp only [toks_tok, List.cons.injEq] at he
  obtain ⟨rfl, rfl⟩ := he
  obtain ⟨js, hj⟩ := hy
  cases js with
  | nil =>
    simp only [List.nil_append, List.cons.injEq] at hj
    rw [hj.2] at hu
    exact absurd rfl hu
  | cons j js =>
    simp only [List.cons_append, List.cons.injEq] at hj
    rw [mid_exact hr ht h2 rfl hi ⟨js, hj.2⟩ ha hb]
    simp

theorem parseRPC_sat {H : Halt → Prop} {cfg : Cfg} {l : Lexer} (hg : Good l) :
    Sat H (fun r l' => r.inlineComment = none ∧ ∃ ts, RPCToks cfg.gram r ts ∧
        ∀ b cs, SegOut cfg.gram b l (.rpc { r with comments := cs }) ts l')
      (Fail (!cfg.permissive) l) (parseRPC cfg l) := by
  unfold parseRPC
  refine step_expect (.with_ .kw) rfl (by simp) (by simp) (Took.refl hg) (fun x1 l1 g1 ht => ?_)
  rw [sat_position]
  refine step_expect .next rfl (by simp) (by simp) ht (fun x2 l2 g2 ht => ?_)
  rw [sat_txt]
  refine Sat.stepR ht (parseRPCMessage_sat ht.good) ?_
  rintro rq l3 ⟨qs, h1, h2⟩
  have ht := ht.trans h2
  refine step_expect (.with_ .kw) rfl (by simp) (by simp) ht (fun x4 l4 g4 ht => ?_)
  refine Sat.stepR ht (parseRPCMessage_sat ht.good) ?_
  rintro rs l5 ⟨ss, h3, h4⟩
  have ht := ht.trans h4
  refine sat_next ht.good ?_
  rw [sat_position]
  have hfe : ∀ {α : Type} {Q : α → Lexer → Prop} {E : Err → Lexer → Prop} {f : List Comment → P α} {a b : SPos}
      {l : Lexer}, Sat H Q E (f ((l.findMidComments a b).map (fun c => mkComment c.literal c.pos)) l) →
      Sat H Q E ((findEmbeddedComments a b >>= f) l) := fun h => h
  refine hfe ?_
  rw [sat_tok]
  have hd : Word l2.text := by rw [← g2.text]; exact g2.reads.1
  have hh : ∀ t ∈ [] ++ [x1] ++ [x2] ++ qs ++ [x4] ++ ss, t.text ≠ c!"{" := by
    intro t h
    simp only [List.nil_append, List.mem_append, List.mem_singleton] at h
    rcases h with (((rfl | rfl) | h) | rfl) | h
    · rw [g1.kw rfl]; decide
    · exact word_ne g2.reads.1 curly_not_word
    · exact rpcMessage_ne h1 t h
    · rw [g4.kw rfl]; decide
    · exact rpcMessage_ne h3 t h
  refine sat_ite (fun h => ?_) (fun h5 => ?_)
  · refine sat_unNext ?_
    have hte := ht.trans (next_took ht.good (m := {}) rfl (by rw [h]; simp))
    have ht := ht.nil_trans (took_putBack ht.good {})
    refine Sat.bind (Q := fun r l' => ∃ x5 os x6 hd body, (Recd l → NoCom l →
        ((nextSt {} l5).findMidComments l1.pos (nextSt {} l5).pos).map (fun c => mkComment c.literal c.pos) =
          commentsIn hd) ∧ x5.text = c!"{" ∧ RPCOptions cfg.gram r.1 os ∧ x6.text = c!"}" ∧
        x6.pos = l'.pos.p ∧ l'.scanner.pos.p.line = x6.pos.line ∧ UpTo c!"{" x5 hd ∧
        toks hd = [x1, x2] ++ qs ++ x4 :: ss ++ [x5] ∧ toks body = os ∧
        TookI l (hd ++ opt r.2 ++ (body ++ [.tok x6])) l' ∧ Behind x5.pos.line r.2 (body ++ [.tok x6]) ∧
        ∀ o ∈ r.1, o.comments = [] ∧ o.inlineComment = none) ?_ ?_
    · unfold parseRPCOptions
      refine step_expect .next rfl (by simp) (by simp) ht (fun x5 l5' g5 ht => ?_)
      obtain ⟨hi, ht, e1, e2, e2'⟩ := ht.seg (real_of g5.token)
      have hu := e2.upTo e1 (g5.punct rfl) hh
      have hem : Recd l → NoCom l →
          ((nextSt {} l5).findMidComments l1.pos (nextSt {} l5).pos).map (fun c => mkComment c.literal c.pos) =
            commentsIn hi := by
        intro hr hnc
        have e5 := g5.eq
        have hx5 : x5 = nextTok {} l5 := by
          have gn := got_next (m := {}) rfl h (by simp) (by simp)
          have h1 := g5.pos
          have h2 := g5.punct rfl
          rw [e5] at h1
          cases x5
          exact Tok.mk.injEq .. ▸ ⟨h2.trans (gn.punct rfl).symm, h1⟩
        refine header_exact (x := x1) hr hte ht (by rw [e1, hx5]) (by rw [e5]; rfl) (e2' hnc) e2
          ⟨[x2] ++ qs ++ [x4] ++ ss ++ [nextTok {} l5], by simp, by simp⟩ (by rw [g1.pos]) ?_
        rw [hx5]
        rfl
      refine stepI_inline ht (fun c l6 ht hinl => ?_)
      rw [sat_bound]
      refine Sat.step ht.took (rpcOptionsLoop_sat _ ht.good (by omega)) ?_
      rintro r l7 ⟨os, us, x, rfl, h6, h7, h8, h9, h10, h11, h0⟩
      obtain ⟨js, h9, e3, ⟨body, rfl⟩, _⟩ := h9.seg (real_of h10)
      have e3 : toks body = us := by
        simp only [toks_append, toks_tok, toks_nil] at e3
        exact List.append_inj_left' e3 rfl
      exact ⟨x5, us, x, hi, body, hem, g5.punct rfl, h6, h7, h8, h11, hu, by simpa using e1, e3, ht.trans h9,
        hinl.behind (by rw [g5.pos]) h9, h0⟩
    · rintro ⟨os, c⟩ l6 ⟨x5, os', x6, hi, body, hem, h6, h7, h8, h9, h9', hu, e1, rfl, ht, hbe, h0⟩
      refine Sat.bind (blockLastPos_sat ht.good h8 h9 h9') ?_
      rintro q l7 ⟨tl, h10, hc⟩
      have ht := ht.trans h10
      obtain ⟨y, tl', e, _, hw⟩ := hc.head
      simp only [List.cons.injEq, Item.tok.injEq] at e
      obtain ⟨rfl, rfl⟩ := e
      obtain ⟨t, j1, j2, j3⟩ := hc.last
      refine ⟨rfl, [x1, x2] ++ qs ++ x4 :: ss ++ (x5 :: toks body ++ (x6 :: toks tl)), ⟨hd, [x1, x2], qs, x4, ss, x5 :: toks body ++ (x6 :: toks tl), by simp [g1.kw rfl, g2.text], h1, g4.kw rfl, h3,
        .inr ⟨x5, toks body, x6 :: toks tl, h6, h7, hc.close, rfl⟩, rfl, ?_⟩, fun b cs => ?_⟩
      · simpa using spans_block (G := cfg.gram) (a := x1) (mid := x2 :: qs ++ x4 :: ss ++ x5 :: toks body)
          (cl := x6 :: toks tl) (p := l1.pos) (q := q) g1.pos hc.closed
      · refine ⟨hi ++ opt c ++ body ++ .tok x6 :: tl, t, by simp [toks_append, e1], by simpa using ht, j1.append _, j3,
          fun hr hnc => .rpc _ hi body _ ⟨x5, x6, tl, hu, h8, rfl, hw, hbe⟩ (hem hr hnc) h0⟩
  refine sat_ite (fun h => ?_) (fun h6 => ?_)
  · have g := got_next (m := {}) rfl h (by simp) (by simp)
    have ht := ht.trans (next_took ht.good (m := {}) rfl (by rw [h]; simp))
    refine ⟨rfl, [x1, x2] ++ qs ++ x4 :: ss ++ [nextTok {} l5], ⟨hd, [x1, x2], qs, x4, ss, [nextTok {} l5], by simp [g1.kw rfl, g2.text], h1, g4.kw rfl, h3,
      .inl ⟨by simp [g.punct rfl], rfl⟩, rfl, ?_⟩, fun b cs => ?_⟩
    · simpa using spans_mk (a := x1) (mid := x2 :: qs ++ x4 :: ss) (b := nextTok {} l5)
        (info := ⟨l1.pos.p, (nextSt {} l5).pos.p⟩) g1.pos rfl
    · obtain ⟨seg, e0, e1, e2, e3⟩ := ht.seg (real_of h)
      refine ⟨seg, _, by simpa using e1, e0, e2, rfl, fun hr hnc => .noOptions _ _ rfl rfl ?_
        (header_exact (x := x1) hr ht e0 e1 rfl (e3 hnc) e2
          ⟨[x2] ++ qs ++ [x4] ++ ss ++ [nextTok {} l5], by simp, by simp⟩ (by rw [g1.pos]) rfl)⟩
      rw [e1]
      intro t h
      rcases List.mem_append.1 h with h | h
      · exact hh t h
      · simp only [List.mem_singleton] at h
        rw [h, g.punct rfl]; decide
  · exact sat_unexpected rfl ht

theorem serviceStmt_sat {H : Halt → Prop} {cfg : Cfg} {cs : List Comment} {t : Token} {l : Lexer} (hg : Good l) :
    Sat H (StmtI cfg.gram cfg.bodyIncludingComments .service cs l)
      (Bad (!cfg.permissive) l) (serviceStmt cfg cs t l) := by
  unfold serviceStmt
  refine sat_ite (fun h => ?_) (fun h1 => ?_)
  · refine Sat.stepR (Took.refl hg) ((parseOption_sat hg).and (parseOption_ends _ _)) ?_
    rintro o l1 ⟨⟨ts, h1, h2⟩, he⟩
    exact ⟨by simp, by simp, he.inline, by simp [commentsOf], ts, .option _ _ _ (by simp) h1,
      ended_out h2 (optionToks_spans h1) he trivial⟩
  refine sat_ite (fun h => ?_) (fun h2 => ?_)
  · refine Sat.stepF (Took.refl hg) (parseRPC_sat hg) ?_
    rintro o l1 ⟨h0, ts, h1, h2⟩
    exact ⟨by simp, by simp, h0, by simp [commentsOf], ts, .rpc _ _ h1, h2 _ _⟩
  · refine Sat.stepF (Took.refl hg) ((readEmptyStatement_sat (sm := !cfg.permissive) hg).mono (fun _ _ h => h)
      (fun _ _ h => h.1)) ?_
    rintro _ l1 ⟨x, h3, h4, _, h5, h6⟩
    exact ⟨by simp, by simp, rfl, by simp [commentsOf], [x], .empty _ _ _ h3, semi_out (ts := []) h4 h5 h6 trivial⟩

theorem serviceLoop_sat {H : Halt → Prop} {cfg : Cfg} {il : Option Comment} (n : Nat) :
    ∀ {l : Lexer} {vs : List Visitee}, Good l → l.scanner.inp.length < n →
    Sat H (LoopOut cfg .service il l vs) (Bad (!cfg.permissive) l) (serviceLoop cfg il n vs l) := by
  induction n with
  | zero => intro _ _ _ h; omega
  | succ n ih =>
    intro l vs hg hn
    unfold serviceLoop
    refine stepI_comments (TookI.refl hg) (fun cs l1 ht hnc => ?_)
    simp only [List.nil_append] at ht
    refine sat_peekKeyword ht.good ?_
    have hb := back_putBack ht.good .kw
    have hnc := hnc.back hb
    have ht := ht.back hb
    refine sat_ite (fun h => ?_) (fun h => ?_)
    · refine (closeBody_sat ht.good (by rw [hb.token]; exact h) hnc).mono ?_ (fun _ _ h => h)
      rintro r l' ⟨cl, h1, h2, h3, h4⟩
      exact ⟨_, [], _, h1, h2, bodyComments_body _ _, h3.closed, loopI_done ht h3 h4⟩
    · refine Sat.step ht.took (serviceStmt_sat ht.good ) ?_
      rintro v l2 hv
      obtain ⟨h1, h2, _, _, _, _, h3⟩ := id hv
      refine Sat.bind (maybeScan_sat h3.took.good h1 h2) ?_
      rintro v' l3 ⟨o, rfl, ho⟩
      obtain ⟨us, htk, hne⟩ := stmtI_step ht hv ho
      have hl := htk.length
      have : 0 < us.length := List.length_pos_iff.2 hne
      refine (Sat.tail (E := Bad (!cfg.permissive)) htk (ih htk.good (by omega))).mono ?_ (fun _ _ h => h)
      intro r l' h
      exact loopOut_cons ht hnc hv ho h

theorem parseService_sat {H : Halt → Prop} {cfg : Cfg} {l : Lexer} (hg : Good l) :
    Sat H (fun r l' => r.inlineComment = none ∧ ∃ ts, (∀ cs, Toks cfg.gram .file (.service { r with comments := cs }) ts) ∧
        ∀ cs, SegOut cfg.gram cfg.bodyIncludingComments l (.service { r with comments := cs }) ts l')
      (Bad (!cfg.permissive) l) (parseService cfg l) := by
  unfold parseService
  refine step_expect (.with_ .kw) rfl (by simp) (by simp) (Took.refl hg) (fun x1 l1 g1 ht => ?_)
  rw [sat_position]
  refine step_expect .next rfl (by simp) (by simp) ht (fun x2 l2 g2 ht => ?_)
  rw [sat_txt]
  have hh : ∀ t ∈ [] ++ [x1] ++ [x2], t.text ≠ c!"{" := by
    intro t h
    simp only [List.nil_append, List.cons_append, List.mem_cons, List.not_mem_nil, or_false] at h
    rcases h with rfl | rfl
    · rw [g1.kw rfl]; decide
    · exact word_ne g2.reads.1 curly_not_word
  refine Sat.bind (Q := fun r l' => ∃ x3 us cl, x3.text = c!"{" ∧ Spec.Body cfg.gram .service r.1 us ∧
      Closed cfg.gram cl r.2.2 ∧ BlockI cfg.gram cfg.bodyIncludingComments .service false r (x3 :: us ++ cl) l2 l') ?_ ?_
  · unfold parseServiceBody
    refine step_expect .next rfl (by simp) (by simp) ht (fun x3 l3 g3 ht3 => ?_)
    refine Sat.bind (parseInline_sat ht3.good) (fun c l4 hi => ?_)
    have ht4 := ht3.nil_trans hi.nil
    rw [sat_bound]
    refine (Sat.tail (E := Bad (!cfg.permissive)) ht4 (serviceLoop_sat _ ht4.good (by omega))).mono ?_ (fun _ _ h => h)
    rintro r l' ⟨ws, us, cl, h1, h2, h3, h4, h5⟩
    simp only [List.nil_append] at h1
    subst h1
    exact ⟨x3, us, cl, g3.punct rfl, h3, h4, loopI_block (g3.took ht.good) g3.token (g3.punct rfl) g3.pos hi
      (TookI.refl hi.took.good) h2 (by simp) h5⟩
  · rintro ⟨b, c, q⟩ l3 ⟨x3, us, cl, h1, h2, h3, hbi⟩
    refine ⟨rfl, [x1, x2, x3] ++ us ++ cl, fun cs => .service _ [x1, x2, x3] us cl ?_ ?_ h2 h3.close ?_, fun cs => ?_⟩
    · simp [g1.kw rfl, g2.text, h1]
    · show Word l2.text
      rw [← g2.text]; exact g2.reads.1
    · simpa using spans_block (mid := [x2, x3] ++ us) g1.pos h3
    · simpa using blockI_out (v := .service _) ht hh hbi (fun body seg _ h1 h2 => .service _ body seg h1 h2) (by simp)

end Parser
end Verif
