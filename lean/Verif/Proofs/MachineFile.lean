import Verif.Proofs.MachineBlock
import Verif.Proofs.ParseProto

set_option backward.isDefEq.respectTransparency false
set_option backward.dsimp.instances true

/-!
# Files on the concrete state and on the ideal cursor

`findEmbeddedComments` writes the columns of comments that were scanned earlier.  That leaves what can be seen as it
is only if they lie before the cursor, where the text is.  So the functions that call it are not compared in all
states but in those that a parse reaches.
-/

namespace Verif

open Spec Lexer Props

variable {ρ : Type} [Source ρ]

/-- The two outcomes are the same; after an error the scanners may differ. -/
def SameRes {α β : Type} (f : α → β) : Res Lexer Err α → Res (Machine ρ) Err β → Prop
  | .halt .fuel, _ => True
  | .ok a l, .ok b k => b = f a ∧ RLex l k
  | .err e l, .err e' k => e' = e ∧ k.log = l.log
  | .halt .panic, .halt .panic => True
  | _, _ => False

section
variable {α β γ δ : Type} {f : α → β} {g : γ → δ}

theorem RefRes.same {r : Res Lexer Err α} {r' : Res (Machine ρ) Err β} (h : RefRes f r r') : SameRes f r r' := by
  unfold RefRes at h
  split at h <;> first | trivial | exact h | exact ⟨h.1, h.2.log⟩ | exact h.elim

theorem SameRes.bind {m : P α} {m' : MP ρ β} {F : α → P γ} {F' : β → MP ρ δ} {l : Lexer} {k : Machine ρ}
    (h : SameRes f (m l) (m' k)) (hf : ∀ a l' k', m l = .ok a l' → m' k = .ok (f a) k' → RLex l' k' →
      SameRes g (F a l') (F' (f a) k')) : SameRes g ((m >>= F) l) ((m' >>= F') k) := by
  show SameRes g (M.bind m F l) (M.bind m' F' k)
  unfold M.bind
  revert h hf
  cases m l with
  | ok a l' =>
    cases m' k with
    | ok b k' =>
      intro h hf
      obtain ⟨rfl, h⟩ := h
      exact hf a l' k' rfl rfl h
    | err e k' => intro h; exact h.elim
    | halt h => intro h; exact h.elim
  | err e l' =>
    cases m' k with
    | ok b k' => intro h; exact h.elim
    | err e k' => intro h _; exact h
    | halt h => intro h; exact h.elim
  | halt h =>
    cases h with
    | fuel => intro _ _; trivial
    | panic =>
      cases m' k with
      | ok b k' => intro h; exact h.elim
      | err e k' => intro h; exact h.elim
      | halt h =>
        cases h with
        | fuel => intro h; exact h.elim
        | panic => intro _ _; trivial

theorem SameRes.then_ {m : P α} {m' : MP ρ β} {F : α → P γ} {F' : β → MP ρ δ} {l : Lexer} {k : Machine ρ}
    (h : Ref f m m') (hl : RLex l k) (hf : ∀ a l' k', m l = .ok a l' → RLex l' k' →
      SameRes g (F a l') (F' (f a) k')) : SameRes g ((m >>= F) l) ((m' >>= F') k) :=
  SameRes.bind (h l k hl).same fun a l' k' e _ => hf a l' k' e

theorem SameRes.ret {a : α} {b : β} {l : Lexer} {k : Machine ρ} (h : RLex l k) (e : b = f a) :
    SameRes f ((Pure.pure a : P α) l) ((Pure.pure b : MP ρ β) k) := ⟨e, h⟩

theorem Sat.ok_of {H : Halt → Prop} {Q : α → Lexer → Prop} {E : Err → Lexer → Prop} {r : Res Lexer Err α}
    (h : Sat H Q E r) {a : α} {l' : Lexer} (e : r = .ok a l') : Q a l' := by
  subst e; exact h

end

/-- The comments of a stream lie in its text. -/
theorem flow_com_past {p : SPos} {rest c : Str} {is : List Item} (h : Flow p rest is c) :
    ∀ x, .com x ∈ is → ∃ q t more, x = Parser.mkComment t q ∧ p.advanceAll c = q.advanceAll (t ++ more) := by
  induction h with
  | nil => simp
  | space ch is c hc _ ih => exact fun x hx => ih x hx
  | @com p rest raw text is c hc _ ih =>
    intro x hx
    rcases List.mem_cons.1 hx with e | hx
    · cases e
      obtain ⟨more, e⟩ : ∃ more, raw = text ++ more := by
        cases hc with
        | line b => exact ⟨['\n'], rfl⟩
        | last b => exact ⟨[], by simp⟩
        | block b => exact ⟨[], by simp⟩
      exact ⟨p, text, more ++ c, rfl, by rw [e]; simp⟩
    · obtain ⟨q, t, more, h1, h2⟩ := ih x hx
      exact ⟨q, t, more, h1, by rw [SPos.advanceAll_append]; exact h2⟩
  | @tok p rest w is c _ _ _ _ ih =>
    intro x hx
    obtain ⟨q, t, more, h1, h2⟩ := ih x (by simpa using hx)
    exact ⟨q, t, more, h1, by rw [SPos.advanceAll_append]; exact h2⟩

theorem com_mem {is : List Item} {c : Comment} (h : c ∈ commentsIn is) : .com c ∈ is := by
  induction is with
  | nil => simp [commentsIn] at h
  | cons i is ih =>
    cases i with
    | tok t => exact List.mem_cons_of_mem _ (ih h)
    | com d =>
      rcases List.mem_cons.1 h with rfl | h
      · simp
      · exact List.mem_cons_of_mem _ (ih h)

/-! ## The comments that were recorded -/

/-- A recorded comment as the concrete scanner keeps it. -/
def Text.pair (t : Text) : Str × Position := (t.literal, t.pos.p)

theorem scanned_pairs (cs us : List Text) :
    (cs.map Text.pair).foldl (fun us c => if !Machine.Lex.findComment us c then us ++ [c] else us) (us.map Text.pair) =
      (cs.foldl (fun us c => if !Scanner.findComment us c then us ++ [c] else us) us).map Text.pair := by
  induction cs generalizing us with
  | nil => rfl
  | cons c cs ih =>
    have e : Machine.Lex.findComment (us.map Text.pair) c.pair = Scanner.findComment us c := by
      unfold Machine.Lex.findComment Scanner.findComment
      rw [List.any_map]
      rfl
    simp only [List.map_cons, List.foldl_cons, e]
    rw [← ih]
    congr 1
    split <;> simp

theorem mid_pairs {l : Lexer} {k : Machine ρ} (h : RLex l k) (a b : SPos) :
    Machine.Lex.findMidComments k a.p b.p = (l.findMidComments a b).map Text.pair := by
  unfold Machine.Lex.findMidComments Lexer.findMidComments Machine.Lex.getScannedComments Scanner.getScannedComments
  have hc : k.scanner.comments = l.scanner.comments.map Text.pair := h.stand.comments.symm
  rw [hc]
  have := scanned_pairs l.scanner.comments []
  simp only [List.map_nil] at this
  rw [this, List.filter_map]
  rfl

/-- The cursor is behind the comment. -/
def Text.Passed (c : Text) (l : Lexer) : Prop :=
  ∃ (q : SPos) (more : Str), q.p = c.pos.p ∧ l.scanner.pos = q.advanceAll (c.literal ++ more)

theorem embedded_loop {l : Lexer} (cs : List Text) : ∀ {k : Machine ρ} (acc : List Comment), RLex l k →
    (∀ c ∈ cs, c.Passed l) →
    ∃ k', Machine.Parse.embeddedLoop (cs.map Text.pair) acc k =
      .ok (acc ++ cs.map (fun c => Parser.mkComment c.literal c.pos)) k' ∧ RLex l k' := by
  induction cs with
  | nil => intro k acc h _; exact ⟨k, by simp [Machine.Parse.embeddedLoop, pure, M.pure], h⟩
  | cons c cs ih =>
    intro k acc h hb
    obtain ⟨q, more, hq, hp⟩ := hb c (by simp)
    have h1 : RLex l { k with scanner := (Concrete.advancedBulk c.pos.p c.literal k.scanner).2 } :=
      ⟨h.token, h.text, h.rawText, h.pos, h.log, stand_bulk hq _ more hp h.stand⟩
    obtain ⟨k', e, h'⟩ := ih (acc ++ [Parser.mkComment c.literal c.pos]) h1 fun x hx => hb x (by simp [hx])
    refine ⟨k', ?_, h'⟩
    have e1 : Machine.Parse.mkComment c.literal c.pos.p k =
        .ok (Parser.mkComment c.literal c.pos)
          { k with scanner := (Concrete.advancedBulk c.pos.p c.literal k.scanner).2 } := by
      unfold Machine.Parse.mkComment Parser.mkComment
      simp only
      rw [bulk_result (q := c.pos) rfl c.literal k.scanner]
    show (Machine.Parse.mkComment c.literal c.pos.p >>= fun x => Machine.Parse.embeddedLoop _ (acc ++ [x])) k = _
    rw [M.bind_ok e1, e]
    simp

omit [Source ρ] in
/-- Whatever the comments, the current token stays. -/
theorem embedded_any (cs : List (Str × Position)) : ∀ (k : Machine ρ) (acc : List Comment),
    ∃ r k', Machine.Parse.embeddedLoop cs acc k = .ok r k' ∧ k'.token = k.token ∧ k'.text = k.text ∧ k'.pos = k.pos ∧
      k'.log = k.log := by
  induction cs with
  | nil => intro k acc; exact ⟨_, k, rfl, rfl, rfl, rfl, rfl⟩
  | cons c cs ih =>
    intro k acc
    obtain ⟨r, k', e, h⟩ := ih { k with scanner := (Concrete.advancedBulk c.2 c.1 k.scanner).2 }
      (acc ++ [{ raw := c.1, info := { pos := c.2, lastPos := (Concrete.advancedBulk c.2 c.1 k.scanner).1 } }])
    exact ⟨r, k', e, h⟩

/-- The comments between the first and the last token of a statement lie before the cursor. -/
theorem header_passed {l l1 : Lexer} {ts : List Tok} {x y : Tok} {a b : SPos} (hr : Recd l) (hn : NoCom l)
    (ht : Took l (x :: ts ++ [y]) l1) (hy : Real l1.token) (ha : a.p = x.pos) (hb : b.p = y.pos) :
    ∀ c ∈ l1.findMidComments a b, c.Passed l1 := by
  obtain ⟨seg, h0, h1, h2, h3⟩ := ht.seg hy
  have he := Parser.header_exact (x := x) hr ht h0 h1 rfl (h3 hn) h2 ⟨ts ++ [y], by simp, by simp⟩ ha hb
  intro c hc
  have hm : Parser.mkComment c.literal c.pos ∈ commentsIn seg := by
    rw [← he]
    exact List.mem_map_of_mem (f := fun c : Text => Parser.mkComment c.literal c.pos) hc
  obtain ⟨_, t, i, p, fl⟩ := h0
  obtain ⟨q, t', more, e1, e2⟩ := flow_com_past fl _ (com_mem hm)
  have e3 : c.literal = t' := congrArg Comment.raw e1
  have e4 : c.pos.p = q.p := congrArg (fun x => x.info.pos) e1
  exact ⟨q, more, e4.symm, by rw [p, e2, e3]⟩

namespace Parser

theorem took_expect {nx : P Unit} {m : Mode} (hn : IsNext nx m) (hm : m.comment = false) {t : Token} {s : String}
    (h1 : t ≠ .eof) (h2 : t ≠ .illegal) {l0 l l' : Lexer} {ts : List Tok} {a : Unit} (ht : Took l0 ts l)
    (e : expect nx t s l = .ok a l') : ∃ x, Got m t l x l' ∧ Took l0 (ts ++ [x]) l' :=
  (tail_expect (H := fun _ => True) (E := FailR true) (Q := fun _ l' => ∃ x, Got m t l x l' ∧ Took l0 (ts ++ [x]) l')
    hn hm h1 h2 (s := s) ht fun x _ g t => ⟨x, g, t⟩).ok_of e

theorem same_parseRPC (cfg : Cfg) {l : Lexer} {k : Machine ρ} (hg : Good l) (hr : Recd l) (hn : NoCom l)
    (h : RLex l k) : SameRes (fun a => a) (parseRPC cfg l) (Machine.Parse.parseRPC cfg k) := by
  unfold parseRPC Machine.Parse.parseRPC
  refine .then_ (ref_expect _ _ (ref_nextWith _)) h fun _ l1 k1 e1 h => ?_
  obtain ⟨x1, g1, ht⟩ := took_expect (.with_ .kw) rfl (by simp) (by simp) (Took.refl hg) e1
  refine .then_ ref_position h fun p l1' k1 e h => ?_
  obtain ⟨rfl, rfl⟩ : l1.pos = p ∧ l1 = l1' := by cases e; exact ⟨rfl, rfl⟩
  refine .then_ (ref_expect _ _ ref_next) h fun _ l2 k2 e2 h => ?_
  obtain ⟨x2, g2, ht⟩ := took_expect .next rfl (by simp) (by simp) ht e2
  refine .then_ ref_txt h fun nm l2' k2 e h => ?_
  obtain rfl : l2 = l2' := by cases e; rfl
  refine .then_ ref_parseRPCMessage h fun rq l3 k3 e3 h => ?_
  obtain ⟨qs, _, h3⟩ := (parseRPCMessage_sat (H := fun _ => True) (sm := true) ht.good).ok_of e3
  have ht := ht.trans h3
  refine .then_ (ref_expect _ _ (ref_nextWith _)) h fun _ l4 k4 e4 h => ?_
  obtain ⟨x4, g4, ht⟩ := took_expect (.with_ .kw) rfl (by simp) (by simp) ht e4
  refine .then_ ref_parseRPCMessage h fun rs l5 k5 e5 h => ?_
  obtain ⟨ss, _, h5⟩ := (parseRPCMessage_sat (H := fun _ => True) (sm := true) ht.good).ok_of e5
  have ht := ht.trans h5
  refine .then_ ref_next h fun _ l6 k6 e6 h => ?_
  obtain rfl : nextSt {} l5 = l6 := by rw [run_next ht.good] at e6; cases e6; rfl
  refine .then_ ref_position h fun p l6 k6 e h => ?_
  obtain ⟨rfl, rfl⟩ : (nextSt {} l5).pos = p ∧ nextSt {} l5 = l6 := by cases e; exact ⟨rfl, rfl⟩
  have hfind : (nextSt {} l5).token ≠ .eof → Real (nextSt {} l5).token →
      ∀ c ∈ (nextSt {} l5).findMidComments l1.pos (nextSt {} l5).pos, c.Passed (nextSt {} l5) := by
    intro h1 h2
    have ht := ht.trans (next_took ht.good (m := {}) rfl h1)
    refine header_passed (x := x1) (y := nextTok {} l5) (ts := [x2] ++ qs ++ [x4] ++ ss) hr hn (by simpa using ht) h2
      g1.pos.symm rfl
  have hm := mid_pairs h l1.pos (nextSt {} l5).pos
  by_cases hc : (nextSt {} l5).token = .leftCurly ∨ (nextSt {} l5).token = .semicolon
  · have hp := hfind (by rcases hc with e | e <;> rw [e] <;> simp) (by rcases hc with e | e <;> exact real_of e)
    obtain ⟨k7, e7, h7⟩ := embedded_loop (l := nextSt {} l5) _ [] h hp
    have e7' : Machine.Parse.findEmbeddedComments l1.pos.p (nextSt {} l5).pos.p k6 =
        .ok (((nextSt {} l5).findMidComments l1.pos (nextSt {} l5).pos).map
          fun c => mkComment c.literal c.pos) k7 := by
      show Machine.Parse.embeddedLoop _ [] k6 = _
      rw [hm, e7]; simp
    refine SameRes.bind (f := fun a => a) (m := findEmbeddedComments l1.pos (nextSt {} l5).pos)
      (m' := Machine.Parse.findEmbeddedComments l1.pos.p (nextSt {} l5).pos.p) ?_ fun em l7 k7 e h => ?_
    · rw [e7']
      exact ⟨rfl, h7⟩
    · intro h8
      refine RefRes.same ((?_ : Ref (fun a => a) _ _) l7 k7 h8)
      refine ref_tok.bind fun t => Ref.ite ?_ (Ref.ite ?_ (Lexer.ref_perr _))
      · refine ref_unNext.bind fun _ => (ref_parseRPCOptions cfg).bind2 fun os il => ?_
        exact (ref_blockLastPos cfg).bind fun q => Ref.pure rfl
      · exact Ref.pure rfl
  · obtain ⟨r, k7, e7, t7, x7, p7, g7⟩ := embedded_any (Machine.Lex.findMidComments k6 l1.pos.p (nextSt {} l5).pos.p) k6 []
    have c1 : ¬ (nextSt {} l5).token = .leftCurly := fun h => hc (.inl h)
    have c2 : ¬ (nextSt {} l5).token = .semicolon := fun h => hc (.inr h)
    have e7' : Machine.Parse.findEmbeddedComments l1.pos.p (nextSt {} l5).pos.p k6 = .ok r k7 := e7
    rw [M.bind_ok e7']
    have et : Machine.Lex.tok k7 = .ok (nextSt {} l5).token k7 := by
      show Res.ok k7.token k7 = _
      rw [t7, h.token]
    rw [M.bind_ok et, if_neg c1, if_neg c2]
    show SameRes _ ((findEmbeddedComments l1.pos (nextSt {} l5).pos >>= _) (nextSt {} l5)) _
    rw [M.bind_ok (m := findEmbeddedComments l1.pos (nextSt {} l5).pos) rfl, M.bind_ok (run_tok _), if_neg c1, if_neg c2]
    refine ⟨?_, g7.trans h.log⟩
    show (_ : Err) = _
    rw [t7, x7, p7, h.token, h.text, h.pos]

theorem same_serviceStmt (cfg : Cfg) (cs : List Comment) (t : Token) {l : Lexer} {k : Machine ρ} (hg : Good l)
    (hr : Recd l) (hn : NoCom l) (h : RLex l k) :
    SameRes (fun a => a) (serviceStmt cfg cs t l) (Machine.Parse.serviceStmt cfg cs t k) := by
  unfold serviceStmt Machine.Parse.serviceStmt
  by_cases h1 : t = .kOption
  · rw [if_pos h1, if_pos h1]
    exact .then_ (ref_parseOption cfg) h fun _ l' k' _ h => ⟨rfl, h⟩
  rw [if_neg h1, if_neg h1]
  by_cases h2 : t = .kRpc
  · rw [if_pos h2, if_pos h2]
    exact SameRes.bind (same_parseRPC cfg hg hr hn h) fun _ l' k' _ _ h => ⟨rfl, h⟩
  rw [if_neg h2, if_neg h2]
  exact .then_ ref_readEmptyStatement h fun _ l' k' _ h => ⟨rfl, h⟩

theorem took_comments {l l' : Lexer} {cs : List Comment} (hg : Good l) (e : parseComments l = .ok cs l') :
    Took l [] l' ∧ NoCom l' := by
  obtain ⟨h1, h2, h3, h4⟩ := (parseComments_sat (H := fun _ => True) (E := fun _ _ => True) hg).ok_of e
  exact ⟨by simpa using (h1.tookI h2 h3).took, h4⟩

theorem took_peekKeyword {l l' : Lexer} {t : Token} (hg : Good l) (hn : NoCom l) (e : peekKeyword l = .ok t l') :
    Took l [] l' ∧ NoCom l' := by
  have := (sat_peekKeyword (H := fun _ => True) (E := fun _ _ => True) (Q := fun _ l' => Took l [] l' ∧ NoCom l')
    (f := fun a => (Pure.pure a : P Token)) hg
    ⟨by simpa using ((back_putBack hg .kw).tookI hg).took, hn.back (back_putBack hg .kw)⟩)
  rw [M.bind_ok e] at this
  exact this

theorem took_isEOF {l l' : Lexer} {b : Bool} (hg : Good l) (hn : NoCom l) (e : isEOF l = .ok b l') :
    Took l [] l' ∧ NoCom l' := by
  have := (sat_isEOF (H := fun _ => True) (E := fun _ _ => True) (Q := fun _ l' => Took l [] l' ∧ NoCom l')
    (f := fun a => (Pure.pure a : P Bool)) hg
    ⟨by simpa using ((back_putBack hg {}).tookI hg).took, hn.back (back_putBack hg {})⟩)
  rw [M.bind_ok e] at this
  exact this

theorem took_maybeScan {l l' : Lexer} {v v' : Visitee} (hg : Good l) (e : maybeScanInlineComment v l = .ok v' l') :
    Took l [] l' := by
  have : Sat (fun _ => True) (fun _ l' => Took l [] l') (fun _ _ => True) (maybeScanInlineComment v l) := by
    unfold maybeScanInlineComment
    refine Sat.bind (parseInline_sat hg) fun c l1 hi => ?_
    cases c with
    | none => exact hi.nil
    | some c => cases v <;> first | exact hi.nil | exact trivial
  exact this.ok_of e

theorem same_serviceLoop (cfg : Cfg) (il : Option Comment) (n : Nat) : ∀ {l : Lexer} {k : Machine ρ}
    (vs : List Visitee), Good l → Recd l → RLex l k →
    SameRes bodyP (serviceLoop cfg il n vs l) (Machine.Parse.serviceLoop cfg il n vs k) := by
  induction n with
  | zero => intros; trivial
  | succ n ih =>
    intro l k vs hg hr h
    unfold serviceLoop Machine.Parse.serviceLoop
    refine .then_ ref_parseComments h fun cs l1 k1 e1 h => ?_
    obtain ⟨ht, hn⟩ := took_comments hg e1
    refine .then_ ref_peekKeyword h fun t l2 k2 e2 h => ?_
    obtain ⟨ht2, hn⟩ := took_peekKeyword ht.good hn e2
    have ht := ht.trans ht2
    by_cases hc : t = .rightCurly
    · rw [if_pos hc, if_pos hc]
      exact RefRes.same (ref_closeBody _ _ _ _ _ _ h)
    rw [if_neg hc, if_neg hc]
    refine SameRes.bind (same_serviceStmt cfg cs t ht.good (ht.recd hr) hn h) fun v l3 k3 e3 _ h => ?_
    obtain ⟨_, _, _, _, ts, _, hs⟩ := (serviceStmt_sat (H := fun _ => True) ht.good).ok_of e3
    have ht := ht.trans hs.took
    refine .then_ (ref_maybeScanInlineComment v) h fun w l4 k4 e4 h => ?_
    have ht := ht.trans (took_maybeScan ht.good e4)
    exact ih _ ht.good (ht.recd hr) h

theorem same_parseService (cfg : Cfg) {l : Lexer} {k : Machine ρ} (hg : Good l) (hr : Recd l) (h : RLex l k) :
    SameRes (fun a => a) (parseService cfg l) (Machine.Parse.parseService cfg k) := by
  unfold parseService Machine.Parse.parseService
  refine .then_ (ref_expect _ _ (ref_nextWith _)) h fun _ l1 k1 e1 h => ?_
  obtain ⟨x1, g1, ht⟩ := took_expect (.with_ .kw) rfl (by simp) (by simp) (Took.refl hg) e1
  refine .then_ ref_position h fun p l1' k1 e h => ?_
  obtain ⟨rfl, rfl⟩ : l1.pos = p ∧ l1 = l1' := by cases e; exact ⟨rfl, rfl⟩
  refine .then_ (ref_expect _ _ ref_next) h fun _ l2 k2 e2 h => ?_
  obtain ⟨x2, g2, ht⟩ := took_expect .next rfl (by simp) (by simp) ht e2
  refine .then_ ref_txt h fun nm l2' k2 e h => ?_
  obtain rfl : l2 = l2' := by cases e; rfl
  refine SameRes.bind (f := bodyP) ?_ fun b l3 k3 _ _ h => ?_
  · unfold parseServiceBody Machine.Parse.parseServiceBody
    refine .then_ (ref_expect _ _ ref_next) h fun _ l3 k3 e3 h => ?_
    obtain ⟨x3, g3, ht⟩ := took_expect .next rfl (by simp) (by simp) ht e3
    refine .then_ ref_parseInlineComment h fun c l4 k4 e4 h => ?_
    have hi := (parseInline_sat (H := fun _ => True) (E := fun _ _ => True) ht.good).ok_of e4
    have ht := ht.trans hi.nil
    refine .then_ ref_bound h fun n l5 k5 e h => ?_
    obtain rfl : l4 = l5 := by cases e; rfl
    exact same_serviceLoop cfg c n [] ht.good (ht.recd hr) h
  · exact ⟨rfl, h⟩

/-! ## Files -/

section
variable (calm : Bool) (cfg : Cfg)

theorem same_protoStmt (cs : List Comment) (t : Token) {l : Lexer} {k : Machine ρ} (hg : Good l) (hr : Recd l)
    (h : RLex l k) :
    SameRes (fun a => a) (protoStmtK calm cfg cs t l) (Machine.Parse.protoStmt cfg cs t k) := by
  unfold protoStmtK Machine.Parse.protoStmt
  cases t <;> first
    | with_reducible exact .then_ ref_readEmptyStatement h fun _ _ _ _ h => SameRes.ret h rfl
    | with_reducible exact .then_ ref_parseImport h fun _ _ _ _ h => SameRes.ret h rfl
    | with_reducible exact .then_ ref_parsePackage h fun _ _ _ _ h => SameRes.ret h rfl
    | with_reducible exact .then_ (ref_parseOption cfg) h fun _ _ _ _ h => SameRes.ret h rfl
    | with_reducible exact .then_ (ref_parseMessageK calm cfg) h fun _ _ _ _ h => SameRes.ret h rfl
    | with_reducible exact .then_ (ref_parseEnum cfg) h fun _ _ _ _ h => SameRes.ret h rfl
    | with_reducible exact SameRes.bind (same_parseService cfg hg hr h) fun _ _ _ _ _ h => SameRes.ret h rfl
    | with_reducible exact .then_ (ref_parseExtend cfg) h fun _ _ _ _ h => SameRes.ret h rfl

theorem same_protoLoop (n : Nat) : ∀ {l : Lexer} {k : Machine ρ} (vs : List Visitee), Good l → Recd l →
    NoGroup l.scanner.inp ∨ calm = true → RLex l k →
    SameRes (fun a => a) (protoLoopK calm cfg n vs l) (Machine.Parse.protoLoop cfg n vs k) := by
  induction n with
  | zero => intros; trivial
  | succ n ih =>
    intro l k vs hg hr hc h
    unfold protoLoopK Machine.Parse.protoLoop
    refine .then_ ref_parseComments h fun cs l1 k1 e1 h => ?_
    obtain ⟨ht, hn⟩ := took_comments hg e1
    refine .then_ ref_eof h fun b l1' k1 e h => ?_
    obtain ⟨ht', hn⟩ := took_isEOF ht.good hn e
    have ht := ht.trans ht'
    by_cases hb : b = true
    · rw [if_pos hb, if_pos hb]
      exact ⟨rfl, h⟩
    rw [if_neg hb, if_neg hb]
    refine .then_ ref_peekKeyword h fun t l2 k2 e2 h => ?_
    obtain ⟨ht2, hn⟩ := took_peekKeyword ht.good hn e2
    have ht := ht.trans ht2
    have hc2 : NoGroup l2.scanner.inp ∨ calm = true := hc.imp (fun h => h.suffix ht.suffix) id
    refine SameRes.bind (same_protoStmt calm cfg cs t ht.good (ht.recd hr) h) fun r l3 k3 e3 _ h => ?_
    obtain ⟨now, v⟩ := r
    obtain ⟨hg3, hs⟩ := (protoStmt_sat (calm := calm) (H := fun _ => True) ht.good (.inl trivial)).ok_of e3
    obtain ⟨us, hs⟩ : ∃ us, Took l2 us l3 := by
      rcases hs with ⟨_, _, _, _, _, ts, _, hs⟩ | ⟨_, x, _, hs, _⟩
      · exact ⟨_, (hs (.inl hc2)).took⟩
      · exact ⟨_, hs⟩
    have ht := ht.trans hs
    refine .then_ (ref_maybeScanInlineComment v) h fun w l4 k4 e4 h => ?_
    have ht := ht.trans (took_maybeScan ht.good e4)
    exact ih _ ht.good (ht.recd hr) (hc.imp (fun h => h.suffix ht.suffix) id) h

theorem same_parseProto {l : Lexer} {k : Machine ρ} (hg : Good l) (hr : Recd l)
    (hc : NoGroup l.scanner.inp ∨ calm = true) (h : RLex l k) :
    SameRes (fun a => a) (parseProtoK calm cfg l) (Machine.Parse.parseProto cfg k) := by
  unfold parseProtoK Machine.Parse.parseProto
  refine .then_ ref_parseBOM h fun _ l1 k1 e1 h => ?_
  obtain ⟨bom, _, ht⟩ := (parseBOM_sat (H := fun _ => True) (E := fun _ _ => True) hg).ok_of e1
  have ht := ht.took
  refine .then_ ref_parseComments h fun cs l2 k2 e2 h => ?_
  have ht := ht.trans (took_comments ht.good e2).1
  refine .then_ (ref_syntaxPart cs) h fun s l3 k3 e3 h => ?_
  obtain ⟨_, _, _, ht3, _⟩ := (syntaxPart_sat (H := fun _ => True) (sm := true) ht.good).ok_of e3
  have ht := ht.trans ht3.took
  refine .then_ (ref_editionPart cs) h fun s l4 k4 e4 h => ?_
  obtain ⟨_, _, _, ht4, _⟩ := (editionPart_sat (H := fun _ => True) (sm := true) ht.good).ok_of e4
  have ht := ht.trans ht4.took
  refine SameRes.bind (same_protoLoop calm cfg _ [] ht.good (ht.recd hr) (hc.imp (fun h => h.suffix ht.suffix) id) h)
    fun b l5 k5 _ _ h => ?_
  exact .then_ ref_position h fun p l6 k6 _ h => ⟨rfl, h⟩

end

end Parser

end Verif
