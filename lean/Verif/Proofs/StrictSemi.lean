import Verif.Proofs.StrictConst

/-!
# A strict run beside a permissive one: a semicolon behind a block
-/

set_option backward.isDefEq.respectTransparency false
set_option backward.dsimp.instances true

namespace Verif
open Spec Scanner Lexer Parser

variable {W V : Lexer → Prop}

/-- A semicolon at `p`, followed by `r`, is next. -/
structure SemiTo (r : Str) (p : SPos) (l : Lexer) : Prop where
  good : Good l
  token : (lex {} l.scanner.inp).token = .semicolon
  rest : lexRest {} l.scanner.inp = r
  pos : l.scanner.pos.advanceAll (lex {} l.scanner.inp).gap = p

section
variable {r : Str} {p : SPos} {l l' : Lexer}

theorem semi_read {m : Mode} {u : Str} (hm : m.comment = false) (h : (lex m u).token = .semicolon) :
    (lex m u).body = c!";" ∧ (lex m u).text = c!";" := by
  obtain ⟨h1, h2⟩ := body_text hm h (by simp) (by simp)
  have := semicolon_text h2
  exact ⟨h1.trans this, this⟩

theorem SemiTo.next (h : SemiTo r p l) : (nextSt {} l).token = .semicolon ∧ (nextSt {} l).text = c!";" ∧
    (nextSt {} l).scanner.inp = r ∧ (nextSt {} l).pos = p ∧ (nextSt {} l).scanner.pos = p.advance ';' := by
  have hb := semi_read (m := {}) rfl h.token
  refine ⟨h.token, hb.2, ?_, h.pos, ?_⟩
  · rw [nextSt_inp]; exact h.rest
  · simp only [nextSt, after_pos, LexOut.raw, SPos.advanceAll, List.foldl_append]
    rw [hb.1]
    have := h.pos
    simp only [SPos.advanceAll] at this
    rw [this]
    rfl

/-- The same in every mode that does not read comments. -/
theorem SemiTo.mode (h : SemiTo r p l) {m : Mode} (hm : m.comment = false) :
    (nextSt m l).token = .semicolon ∧ (nextSt m l).text = c!";" := by
  obtain ⟨g, cs, x, e1, e2, e3, e4⟩ := lex_solid (m := {}) rfl l.scanner.inp
  have hd := drop_raw {} l.scanner.inp
  have hr : (lex {} l.scanner.inp).raw = g ++ [';'] := by
    rw [LexOut.raw, e3, (semi_read rfl h.token).1]
  rw [hr] at hd
  obtain ⟨y, hx⟩ : ∃ y, x = ';' :: y := by
    have := e1.symm.trans hd
    simp only [List.append_assoc] at this
    exact ⟨_, List.append_cancel_left this⟩
  have hl := lex_gap (m := m) (rest := x) (g := g) (cs := cs) (by rw [hm]; exact e2)
  rw [← e1, hx, lex_single y (by decide) (fun h => by simp [isQuote] at h) (fun h => absurd h (by decide))] at hl
  show (lex m l.scanner.inp).token = _ ∧ (lex m l.scanner.inp).text = _
  rw [hl]
  exact ⟨rfl, rfl⟩

theorem SemiTo.putBack (h : SemiTo r p l) (m : Mode) : SemiTo r p (putBack m l) :=
  ⟨good_putBack h.good m, h.token, h.rest, h.pos⟩

theorem SemiTo.took (h : SemiTo r p l) (ht : Took l [] l') : SemiTo r p l' := by
  obtain ⟨hg, ⟨c, i, q, y, _⟩, _⟩ := ht
  generalize he : ([] : List Tok) = ts at y
  cases y with
  | cons => simp at he
  | nil cs _ hc =>
    have hl := lex_gap (m := {}) (rest := l'.scanner.inp) (g := c) (cs := _) hc
    rw [← i] at hl
    refine ⟨hg, ?_, ?_, ?_⟩
    · rw [← h.token, hl]
    · rw [← h.rest]
      unfold lexRest
      rw [hl, i]
      simp [LexOut.raw]
    · rw [← h.pos, hl, q]
      simp [SPos.advanceAll]

end

/-- The strict run is before the semicolon that the permissive run has read. -/
def Semi (l l' : Lexer) : Prop :=
  ∃ r p, SemiTo r p l ∧ Good l' ∧ l'.scanner.inp = r ∧ l'.pos = p ∧ l'.scanner.pos = p.advance ';'

/-- Both have just read a right curly. -/
structure Curly (l l' : Lexer) : Prop where
  full : Full l l'
  line : l.scanner.pos.p.line = l.pos.p.line
  off : l.pos.p.offset < l.scanner.pos.p.offset

theorem offset_le (t : Str) : ∀ p : SPos, p.p.offset ≤ (p.advanceAll t).p.offset := by
  induction t with
  | nil => intro p; exact Int.le_refl _
  | cons c t ih =>
    intro p
    refine Int.le_trans ?_ (ih (p.advance c))
    unfold SPos.advance
    split <;> simp <;> omega

theorem curly_next {l l' : Lexer} (h : Near l l') (ht : (nextSt {} l).token = .rightCurly) :
    Curly (nextSt {} l) (nextSt {} l') := by
  have h1 := lex_reads (t := .rightCurly) ht (by simp) (by simp)
  simp [Reads, spelling, punctuation] at h1
  refine ⟨full_nextWith h {}, ?_, ?_⟩ <;>
  · simp only [nextSt, after_pos, LexOut.raw, SPos.advanceAll, List.foldl_append, h1]
    simp [SPos.advance]
    try exact Int.lt_add_of_pos_right _ (by decide)

section
variable {b : Bool} {n n' : Nat}

def QEnd (p q : SPos) (l l' : Lexer) : Prop := (p = q ∧ NearLine l l') ∨ (p.p.offset < q.p.offset ∧ Semi l l')

theorem asim_lastPos : ASim Curly QEnd W (blockLastPos ⟨false, b, n⟩) (blockLastPos ⟨true, b, n'⟩) := by
  refine ⟨fun l l' h => ?_⟩
  have e1 : blockLastPos ⟨false, b, n⟩ l = .ok l.pos l := rfl
  rw [e1]
  have hf := full_nextWith h.full.near {}
  have hg' := h.full.good'
  by_cases ht : (nextSt {} l).token = .semicolon
  · have ht' := hf.rel.token ▸ ht
    have e2 : blockLastPos ⟨true, b, n'⟩ l' = .ok (nextSt {} l').pos (nextSt {} l') := by
      unfold blockLastPos
      rw [bind_run (m := position) (a := l'.pos) (l' := l') rfl, if_pos rfl]
      have : consumeToken .semicolon l' = .ok () (nextSt {} l') := by
        unfold consumeToken
        rw [bind_run (run_next hg'), bind_run (m := tok) (a := .semicolon) (l' := nextSt {} l') (by rw [← ht']; rfl)]
        rfl
      rw [bind_run this, bind_run (m := tok) (a := .semicolon) (l' := nextSt {} l') (by rw [← ht']; rfl)]
      rfl
    refine .inl ⟨_, _, e2, .inr ⟨?_, ?_⟩⟩
    · show l.pos.p.offset < (l'.scanner.pos.advanceAll _).p.offset
      rw [← h.full.near.pos]
      exact Int.lt_of_lt_of_le h.off (offset_le _ _)
    have hs : SemiTo (lexRest {} l.scanner.inp) (nextSt {} l).pos l := ⟨h.full.good, ht, rfl, rfl⟩
    refine ⟨_, _, hs, good_next hg' {}, ?_, ?_, ?_⟩
    · rw [nextSt_inp, h.full.near.inp]
    · exact (show (nextSt {} l).pos = (nextSt {} l').pos from hf.rel.pos).symm
    · rw [← hs.next.2.2.2.2, hf.near.pos]
  · have ht' : ¬ (nextSt {} l').token = .semicolon := hf.rel.token ▸ ht
    have e2 : blockLastPos ⟨true, b, n'⟩ l' = .ok l'.pos (putBack {} l') := by
      unfold blockLastPos
      rw [bind_run (m := position) (a := l'.pos) (l' := l') rfl, if_pos rfl]
      have : consumeToken .semicolon l' = .ok () (putBack {} l') := by
        unfold consumeToken
        rw [bind_run (run_next hg'), bind_run (m := tok) (a := (nextSt {} l').token) (l' := nextSt {} l') rfl,
          if_neg ht']
        exact unNext_nextSt {} l'
      rw [bind_run this, bind_run (m := tok) (a := .illegal) (l' := putBack {} l') rfl, if_neg (by simp)]
      rfl
    refine .inl ⟨_, _, e2, .inl ⟨h.full.rel.pos, near_putBack h.full.near _, ?_⟩⟩
    show l.pos.p.line = l'.scanner.pos.p.line
    rw [← h.line, h.full.near.pos]

end

theorem semi_nearLine {r : Str} {p : SPos} {l0 l' : Lexer} (h : SemiTo r p l0) (hg : Good l') (h1 : l'.scanner.inp = r)
    (h2 : l'.pos = p) (h3 : l'.scanner.pos = p.advance ';') : NearLine (nextSt {} l0) l' := by
  obtain ⟨_, _, e1, e2, e3⟩ := h.next
  exact ⟨⟨good_next h.good {}, hg, e1.trans h1.symm, e3.trans h3.symm⟩, by rw [e2, h2]⟩

/-! ## Statements that end with a block, and the comment behind them -/

def Shut (v v' : Visitee) (l l' : Lexer) : Prop :=
  (NearLine l l' ∧ RelaxedV v v') ∨ (Semi l l' ∧ ∃ p w, RelaxedV v w ∧ blockEnd w < p.offset ∧ endedBy none p w = some v')

/-- The comment behind a statement. -/
def putInline (v : Visitee) : Option Comment → Lexer → Res Lexer Err Visitee
  | none, l => .ok v l
  | some c, l => setInlineComment v c l

theorem maybeScan_eq {v : Visitee} {l l1 : Lexer} {o : Option Comment} (h : parseInlineComment l = .ok o l1) :
    maybeScanInlineComment v l = putInline v o l1 := by
  unfold maybeScanInlineComment
  rw [bind_run h]
  cases o <;> rfl

theorem relaxed_set {v w : Visitee} (h : RelaxedV v w) (c : Comment) (l : Lexer) :
    (∃ x, setInlineComment v c l = .halt x) ∨
    ∃ v1 w1, setInlineComment v c l = .ok v1 l ∧ (∀ l, setInlineComment w c l = .ok w1 l) ∧ RelaxedV v1 w1 := by
  cases h with
  | nil => exact .inl ⟨_, rfl⟩
  | comment => exact .inl ⟨_, rfl⟩
  | importStmt x => exact .inr ⟨_, _, rfl, fun _ => rfl, .importStmt _⟩
  | package x => exact .inr ⟨_, _, rfl, fun _ => rfl, .package _⟩
  | emptyStatement x => exact .inr ⟨_, _, rfl, fun _ => rfl, .emptyStatement _⟩
  | reserved x => exact .inr ⟨_, _, rfl, fun _ => rfl, .reserved _⟩
  | extensions x => exact .inr ⟨_, _, rfl, fun _ => rfl, .extensions _⟩
  | option h =>
    obtain ⟨k, h, rfl⟩ := h
    exact .inr ⟨_, _, rfl, fun _ => rfl, .option ⟨k, h, rfl⟩⟩
  | field h =>
    obtain ⟨k, h, rfl⟩ := h
    exact .inr ⟨_, _, rfl, fun _ => rfl, .field ⟨k, h, rfl⟩⟩
  | mapField h =>
    obtain ⟨k, h, rfl⟩ := h
    exact .inr ⟨_, _, rfl, fun _ => rfl, .mapField ⟨k, h, rfl⟩⟩
  | enumField h =>
    obtain ⟨k, h, rfl⟩ := h
    exact .inr ⟨_, _, rfl, fun _ => rfl, .enumField ⟨k, h, rfl⟩⟩
  | oneof h =>
    obtain ⟨k, j, h, h', rfl⟩ := h
    exact .inr ⟨_, _, rfl, fun _ => rfl, .oneof ⟨k, j, h, h', rfl⟩⟩
  | rpc h =>
    obtain ⟨k, j, h, rfl⟩ := h
    exact .inr ⟨_, _, rfl, fun _ => rfl, .rpc ⟨k, j, h, rfl⟩⟩
  | @message a vs h => exact .inr ⟨_, _, rfl, fun _ => rfl, .message (a := { a with inlineComment := some c }) h⟩
  | @groupField a vs h => exact .inr ⟨_, _, rfl, fun _ => rfl, .groupField (a := { a with inlineComment := some c }) h⟩
  | @enum a vs h => exact .inr ⟨_, _, rfl, fun _ => rfl, .enum (a := { a with inlineComment := some c }) h⟩
  | @extend a vs h => exact .inr ⟨_, _, rfl, fun _ => rfl, .extend (a := { a with inlineComment := some c }) h⟩
  | @service a vs h => exact .inr ⟨_, _, rfl, fun _ => rfl, .service (a := { a with inlineComment := some c }) h⟩

theorem asim_maybeScan {v w : Visitee} (h : RelaxedV v w) :
    ASim NearLine (Both RelaxedV Full) W (maybeScanInlineComment v) (maybeScanInlineComment w) := by
  unfold maybeScanInlineComment
  refine asim_inline.bind fun o _ e => ?_
  subst e
  cases o with
  | none => exact ASim.same h fun _ _ h => h
  | some c =>
    refine ⟨fun l l' hl => ?_⟩
    rcases relaxed_set h c l with ⟨x, hx⟩ | ⟨v1, w1, h1, h2, h3⟩
    · show ARes _ _ (setInlineComment v c l) _
      rw [hx]; trivial
    · show ARes _ _ (setInlineComment v c l) (setInlineComment w c l')
      rw [h1, h2 l']
      exact .inl ⟨_, _, rfl, h3, hl⟩

/-- Putting a comment behind a block. -/
theorem ended_set {p : Position} {w v' : Visitee} (h : endedBy none p w = some v') (c : Comment) (l : Lexer) :
    ∃ x, setInlineComment v' c l = .ok x l ∧ endedBy (some c) p w = some x := by
  cases w <;> simp [endedBy] at h <;> subst h <;> exact ⟨_, rfl, rfl⟩

theorem ended_over {p : Position} {v w v' : Visitee} (hr : RelaxedV v w) (h : endedBy none p w = some v') (c : Comment)
    (l : Lexer) :
    ∃ v1 w1, setInlineComment v c l = .ok v1 l ∧ RelaxedV v1 w1 ∧ blockEnd w1 = blockEnd w ∧
      ∀ i, endedBy i p w1 = endedBy i p w := by
  rcases relaxed_set hr c l with ⟨x, hx⟩ | ⟨v1, w1, h1, h2, h3⟩
  · cases hr <;> simp [endedBy] at h <;> simp [setInlineComment, pure, M.pure] at hx
  · have := h2 l
    refine ⟨v1, w1, h1, h3, ?_, fun i => ?_⟩ <;>
    cases w <;> simp [endedBy] at h <;> simp [setInlineComment, pure, M.pure] at this <;> subst this <;> rfl

theorem relaxed_append : ∀ {as bs cs ds : List Visitee}, RelaxedB as bs → RelaxedB cs ds → RelaxedB (as ++ cs) (bs ++ ds)
  | _, _, _, _, .nil, h => h
  | _, _, _, _, .cons h1 h2, h => .cons h1 (relaxed_append h2 h)
  | _, _, _, _, .semi h1 h2 h3 h4, h => .semi h1 h2 h3 (relaxed_append h4 h)
  | _, _, _, _, .semiNil h1 h2 h3 h4, h => .semiNil h1 h2 h3 (relaxed_append h4 h)

theorem relaxed_comments (b : Bool) (n n' : Nat) (cs : List Comment) :
    RelaxedB (bodyComments ⟨false, b, n⟩ cs) (bodyComments ⟨true, b, n'⟩ cs) := by
  unfold bodyComments
  cases b with
  | false => exact .nil
  | true =>
    simp only [if_true]
    induction cs with
    | nil => exact .nil
    | cons c cs ih => exact .cons (.comment c) ih

theorem inline_took {l : Lexer} (hg : Good l) : ∃ o l1, parseInlineComment l = .ok o l1 ∧ Took l [] l1 := by
  have := parseInlineComment_sat (H := fun _ => False) (E := fun _ _ => False) hg
  revert this
  cases parseInlineComment l with
  | ok o l1 => exact fun h => ⟨o, l1, rfl, h.1⟩
  | err e l1 => exact fun h => h.elim
  | halt h => exact fun h => h.elim

/-- A loop that, on a semicolon, adds an empty statement. -/
structure Eats {α : Type} (L : Nat → List Visitee → P α) (pre : List Visitee) (e : Visitee) : Prop where
  zero : ∀ vs, L 0 vs = M.stop .fuel
  kind : (pre = [] ∧ e = .emptyStatement {}) ∨ (pre = [.emptyStatement {}] ∧ e = .nil)
  step : ∀ k vs r p l, SemiTo r p l → ∃ l0, SemiTo r p l0 ∧
    L (k + 1) vs l = (maybeScanInlineComment e >>= fun v => L k (vs ++ pre ++ [v])) (nextSt {} l0)

theorem asim_ended {α β : Type} {Q : α → β → Lexer → Lexer → Prop} {L : Nat → List Visitee → P α}
    {L' : Nat → List Visitee → P β} {pre : List Visitee} {e : Visitee} (he : Eats L pre e) {k k' : Nat}
    (ih : ∀ j, j ≤ k → ∀ vs vs', RelaxedB vs vs' → ASim Near Q W (L j vs) (L' k' vs'))
    (v v' : Visitee) {vs vs' : List Visitee} (hv : RelaxedB vs vs') :
    ASim (Shut v v') Q W (maybeScanInlineComment v >>= fun v => L k (vs ++ [v]))
      (maybeScanInlineComment v' >>= fun v' => L' k' (vs' ++ [v'])) := by
  refine ⟨fun l l' h => ?_⟩
  rcases h with ⟨h, hr⟩ | ⟨⟨r, p, hs, hg', i1, i2, i3⟩, q, w, hr, hlt, hq⟩
  · refine (ASim.bind (asim_maybeScan hr) fun x y hxy => ?_).run l l' h
    exact (ih k (Nat.le_refl _) _ _ (relaxed_append hv (.cons hxy .nil))).ofF
  · obtain ⟨o, l1, h1, ht⟩ := inline_took hs.good
    obtain ⟨v1, w1, e1, r1, b1, q1⟩ : ∃ v1 w1, maybeScanInlineComment v l = .ok v1 l1 ∧ RelaxedV v1 w1 ∧
        blockEnd w1 = blockEnd w ∧ ∀ i, endedBy i q w1 = endedBy i q w := by
      rw [maybeScan_eq h1]
      cases o with
      | none => exact ⟨v, w, rfl, hr, rfl, fun _ => rfl⟩
      | some c =>
        obtain ⟨v1, w1, a1, a2, a3⟩ := ended_over hr hq c l1
        exact ⟨v1, w1, a1, a2, a3⟩
    rw [← b1] at hlt
    rw [bind_run e1]
    cases k with
    | zero => rw [he.zero]; trivial
    | succ k =>
      obtain ⟨l0, s0, e0⟩ := he.step k (vs ++ [v1]) r p l1 (hs.took ht)
      rw [e0]
      have hn := semi_nearLine s0 hg' i1 i2 i3
      have hi := (asim_inline (W := Never)).run _ _ hn
      obtain ⟨o2, l2, h2, ht2⟩ := inline_took hn.near.good
      rw [h2] at hi
      rcases hi with ⟨o2', l2', h2', ho, hf⟩ | hi
      · subst ho
        rcases he.kind with ⟨rfl, rfl⟩ | ⟨rfl, rfl⟩
        · cases o2 with
          | none =>
            rw [bind_run (maybeScan_eq h2 : maybeScanInlineComment _ _ = .ok (.emptyStatement {}) l2),
              bind_run (maybeScan_eq h2' : maybeScanInlineComment _ _ = .ok v' l2')]
            refine (ih k (by omega) _ _ ?_).run _ _ hf.near
            rw [List.append_nil, List.append_assoc]
            exact relaxed_append hv (.semi (i := none) r1 hlt ((q1 none).trans hq) .nil)
          | some c =>
            obtain ⟨x, hx, hx'⟩ := ended_set hq c l2'
            rw [bind_run (maybeScan_eq h2 : maybeScanInlineComment _ _ = .ok (.emptyStatement { inlineComment := some c }) l2),
              bind_run ((maybeScan_eq h2').trans hx)]
            refine (ih k (by omega) _ _ ?_).run _ _ hf.near
            rw [List.append_nil, List.append_assoc]
            exact relaxed_append hv (.semi (i := some c) r1 hlt ((q1 _).trans hx') .nil)
        · cases o2 with
          | none =>
            rw [bind_run (maybeScan_eq h2 : maybeScanInlineComment _ _ = .ok .nil l2), bind_run (maybeScan_eq h2' : maybeScanInlineComment _ _ = .ok v' l2')]
            refine (ih k (by omega) _ _ ?_).run _ _ hf.near
            rw [List.append_assoc, List.append_assoc]
            exact relaxed_append hv (.semiNil r1 hlt ((q1 none).trans hq) .nil)
          | some c =>
            have : (maybeScanInlineComment .nil >>= fun v => L k (vs ++ [v1] ++ [.emptyStatement {}] ++ [v]))
                (nextSt {} l0) = .halt .panic := by
              show M.bind _ _ _ = _
              unfold M.bind
              rw [maybeScan_eq h2]
              rfl
            rw [this]
            trivial
      · exact hi.elim

end Verif
