import Verif.Proofs.TrackParse

/-!
# Without block comments the remaining text of a message body always shrinks
-/

set_option backward.isDefEq.respectTransparency false
set_option backward.dsimp.instances true

namespace Verif.Parser
open Spec Scanner Lexer

theorem raw_unNext {l l' : Lexer} (h : unNext l = .ok () l') : l'.scanner.raw = l.scanner.raw := by
  have := (unScan_inp l.scanner).2.1
  simp only [unNext, Res.ok.injEq] at h
  rw [← h.2]
  exact this

theorem bind_run {α β : Type} {m : P α} {f : α → P β} {l l' : Lexer} {a : α} (h : m l = .ok a l') :
    (m >>= f) l = f a l' := by
  show M.bind m f l = _
  unfold M.bind
  rw [h]

/-- Recovery after an error: the cursor is on an end of the text, or there will never be a semicolon. -/
theorem trk_recover {t : Str} (hb : NoBlock t) (e : Err) : Run (Lost t) (AtEnd t) (Lost t) (recoverEmpty e) := by
  refine ⟨fun l hl => ?_⟩
  obtain ⟨l1, h1, hg1, hi1⟩ := unNext_good hl.good
  unfold recoverEmpty
  rw [bind_run h1]
  have key : ((nextSt {} l1).token = .semicolon ∧ AtEnd t (nextSt {} l1)) ∨
      ((nextSt {} l1).token ≠ .semicolon ∧ Lost t (putBack {} l1)) := by
    have hr : (nextSt {} l1).token = (lex {} (l.scanner.raw ++ l.scanner.inp)).token := by
      rw [← hi1]; rfl
    have hp : (putBack {} l1).scanner.raw = (lex {} (l.scanner.raw ++ l.scanner.inp)).raw := by
      rw [← hi1]; rfl
    have hq : (putBack {} l1).scanner.inp = l.scanner.raw ++ l.scanner.inp := hi1
    have hn : (nextSt {} l1).scanner.inp = lexRest {} (l.scanner.raw ++ l.scanner.inp) := by
      rw [nextSt_inp, hi1]
    rcases hl.state with ⟨_, u, m, h2, h3, h4 | h4⟩ | h2
    · have e1 : l.scanner.raw ++ l.scanner.inp = u := by
        rw [h3, h4]; exact (drop_raw m u).symm
      rw [e1] at hr hp hq hn
      by_cases h5 : (lex {} u).token = .semicolon
      · exact .inl ⟨hr.trans h5, good_next hg1 _, by rw [hn]; exact (lexRest_suffix _ _).trans h2⟩
      · exact .inr ⟨by rw [hr]; exact h5, good_putBack hg1 _,
          .inl ⟨good_putBack hg1 _, u, {}, h2, hp, .inr hq⟩⟩
    · have e1 : l.scanner.raw ++ l.scanner.inp = (lex m u).raw ++ u := by rw [h3, h4]
      rw [e1] at hr hp hq hn
      rcases twice (m := m) (hb.suffix h2) with ⟨h5, h6⟩ | ⟨h5, h6⟩
      · exact .inl ⟨hr.trans h5, good_next hg1 _, by rw [hn]; exact h6.trans h2⟩
      · exact .inr ⟨by rw [hr]; exact h5, good_putBack hg1 _, .inr (by rw [hp, hq]; exact h6)⟩
    · obtain ⟨h5, h6⟩ := h2.again
      exact .inr ⟨by rw [hr]; exact h5, good_putBack hg1 _, .inr (by rw [hp, hq]; exact h6)⟩
  refine Sat.bind (Q := fun r l' => match r with | .ok _ => AtEnd t l' | .error _ => Lost t l')
    (Sat.attempt (Q := fun _ l' => AtEnd t l') (E := fun _ l' => Lost t l') ?_ (fun _ _ h => h) (fun _ _ h => h)) ?_
  · rw [readEmptyStatement_eq hg1]
    rcases key with ⟨k1, k2⟩ | ⟨k1, k2⟩
    · rw [if_pos k1]; exact k2
    · rw [if_neg k1]; exact k2
  · intro r l' hr
    cases r with
    | ok _ => exact hr
    | error _ => exact hr

section
variable {t : Str} (hb : NoBlock t)
include hb

theorem trk_enumStmt (cfg : Cfg) (cs : List Comment) (k : Token) :
    Run (AtEnd t) (AtEnd t) (Lost t) (enumStmt cfg cs k) := by
  unfold enumStmt
  refine Run.ite (by run) (Run.ite (by run) ?_)
  refine Run.attemptW (by runstep) (fun _ => by run) (fun e => ?_)
  exact (trk_recover hb e).pre fun _ h => h.lost

theorem trk_enumLoop (cfg : Cfg) (o : Option Comment) (n : Nat) (vs : List Visitee) :
    Run (AtEnd t) (Known t) (Lost t) (enumLoop cfg o n vs) := by
  induction n generalizing vs with
  | zero => exact trk_stop _
  | succ n ih =>
    have h := trk_enumStmt hb cfg
    unfold enumLoop; run

theorem trk_parseEnum (cfg : Cfg) : Run (AtEnd t) (Known t) (Lost t) (parseEnum cfg) := by
  have h := trk_enumLoop hb cfg
  have h' : Run (AtEnd t) (Known t) (Lost t) (parseEnumBody cfg) := by unfold parseEnumBody; run
  unfold parseEnum; run

theorem trk_extendStmt (cfg : Cfg) (cs : List Comment) :
    Run (AtEnd t) (AtEnd t) (Lost t) (extendStmt cfg cs) := by
  unfold extendStmt
  refine Run.attemptW (by runstep) (fun _ => by run) (fun e => ?_)
  exact (trk_recover hb e).pre fun _ h => h.lost

theorem trk_extendLoop (cfg : Cfg) (o : Option Comment) (n : Nat) (vs : List Visitee) :
    Run (AtEnd t) (Known t) (Lost t) (extendLoop cfg o n vs) := by
  induction n generalizing vs with
  | zero => exact trk_stop _
  | succ n ih =>
    have h := trk_extendStmt hb cfg
    unfold extendLoop; run

theorem trk_parseExtend (cfg : Cfg) : Run (AtEnd t) (Known t) (Lost t) (parseExtend cfg) := by
  have h := trk_extendLoop hb cfg
  have h' : Run (AtEnd t) (Known t) (Lost t) (parseExtendBody cfg) := by unfold parseExtendBody; run
  unfold parseExtend; run

end

/-! ## Where the cursor is after a message -/

theorem trk_peekIsGroup {t : Str} {E : Lexer → Prop} : Run (AtEnd t) (AtEnd t) E peekIsGroup := by
  refine ⟨fun l hl => (peekIsGroup_sat hl.good).mono ?_ (fun _ _ h => h)⟩
  rintro b l' ⟨hb, _⟩
  exact ⟨hb.good, by rw [hb.inp]; exact hl.suffix⟩

section
variable {t : Str} (hb : NoBlock t) {cfg : Cfg} {body : P Body} (hbody : Run (AtEnd t) (AtEnd t) (Lost t) body)
include hbody

theorem trk_messageWith : Run (AtEnd t) (AtEnd t) (Lost t) (parseMessageWith body) := by
  unfold parseMessageWith; run

theorem trk_groupWith : Run (AtEnd t) (AtEnd t) (Lost t) (parseGroupFieldWith body) := by
  unfold parseGroupFieldWith; run

include hb

theorem trk_fieldStmt (cs : List Comment) : Run (AtEnd t) (AtEnd t) (Lost t) (fieldStmt cfg body cs) := by
  unfold fieldStmt
  refine Run.bind trk_peekIsGroup (fun b => Run.ite ?_ ?_)
  · exact Run.attempt (trk_groupWith hbody) (fun _ => trk_pure _ (fun _ h => h)) (fun e => trk_recover hb e)
  · exact Run.attemptW (trk_field cfg) (fun _ => trk_pure _ (fun _ h => Known.atEnd h)) (fun e => (trk_recover hb e).pre fun _ h => h.lost)

theorem trk_messageStmt (cs : List Comment) (k : Token) :
    Run (AtEnd t) (AtEnd t) (Lost t) (messageStmt cfg body cs k) := by
  have h1 := trk_parseEnum hb cfg
  have h2 := trk_parseExtend hb cfg
  have h3 := trk_messageWith hbody
  have h4 := trk_fieldStmt hb (cfg := cfg) hbody
  unfold messageStmt
  split
  · run
  · run
  · run
  · run
  · run
  · run
  · run
  · run
  · exact h4 cs

theorem trk_messageLoop (o : Option Comment) (n : Nat) (vs : List Visitee) :
    Run (AtEnd t) (AtEnd t) (Lost t) (messageLoop cfg body o n vs) := by
  induction n generalizing vs with
  | zero => exact trk_stop _
  | succ n ih =>
    have h := trk_messageStmt hb (cfg := cfg) hbody
    unfold messageLoop; run

theorem trk_messageBodyWith : Run (AtEnd t) (AtEnd t) (Lost t) (messageBodyWith cfg body) := by
  have h := trk_messageLoop hb (cfg := cfg) hbody
  unfold messageBodyWith; run

end

theorem trk_messageBody {t : Str} (hb : NoBlock t) (cfg : Cfg) (d : Nat) :
    Run (AtEnd t) (AtEnd t) (Lost t) (messageBody cfg d) := by
  induction d with
  | zero => exact trk_stop _
  | succ d ih => exact trk_messageBodyWith hb ih

/-! ## Progress -/

/-- Any error. -/
def AnyErr (_ : Bool) (_ : Lexer) (_ : Err) (_ : Lexer) : Prop := True

instance {sm : Bool} : ErrRel sm (AnyErr sm) := ⟨fun _ _ => trivial, fun _ => trivial⟩

/-- The remaining text is an end of what it was, and shorter. -/
structure Shorter (l l' : Lexer) : Prop where
  atEnd : AtEnd l.scanner.inp l'
  lt : l'.scanner.inp.length < l.scanner.inp.length

theorem Shorter.of {l l' : Lexer} {ts : List Tok} (ht : Took l ts l') (hn : ts ≠ []) : Shorter l l' := by
  have := ht.length
  have := List.length_pos_iff.2 hn
  exact ⟨⟨ht.good, ht.suffix⟩, by omega⟩

theorem Shorter.after {l l1 l2 : Lexer} {ts : List Tok} (ht : Took l ts l1) (h : Shorter l1 l2) : Shorter l l2 := by
  have := ht.length
  have := h.lt
  exact ⟨⟨h.atEnd.good, h.atEnd.suffix.trans ht.suffix⟩, by omega⟩

theorem Shorter.before {l l1 l2 : Lexer} {ts : List Tok} (h : Shorter l l1) (ht : Took l1 ts l2) : Shorter l l2 := by
  have := ht.length
  have := h.lt
  exact ⟨⟨ht.good, ht.suffix.trans h.atEnd.suffix⟩, by omega⟩

theorem sat_both {α : Type} {H : Halt → Prop} {Q Q' : α → Lexer → Prop} {E E' : Err → Lexer → Prop}
    {r : Res Lexer Err α} (h : Sat H Q E r) (h' : Sat (fun _ => True) Q' E' r) :
    Sat H (fun a l => Q a l ∧ Q' a l) (fun e l => E e l ∧ E' e l) r := by
  cases r with
  | ok a l => exact ⟨h, h'⟩
  | err e l => exact ⟨h, h'⟩
  | halt k => exact h

/-- The loops do not run out. -/
def NoFuel (k : Halt) : Prop := k ≠ .fuel

/-- What is asked of the parser for nested bodies: `d` bounds the depth. -/
def BodyFin (cfg : Cfg) (d : Nat) (body : P Body) : Prop :=
  (∀ {t : Str}, NoBlock t → Run (AtEnd t) (AtEnd t) (Lost t) body) ∧
  ∀ {l : Lexer}, Good l → NoBlock l.scanner.inp → l.scanner.inp.length < d → l.scanner.inp.length ≤ cfg.fuel →
    Sat NoFuel (fun _ l' => Shorter l l') (AnyErr (!cfg.permissive) l) (body l)

section
variable {cfg : Cfg} {d : Nat} {body : P Body} (hbody : BodyFin cfg d body)
include hbody

theorem fin_messageWith {l : Lexer} (hg : Good l) (hb : NoBlock l.scanner.inp) (hd : l.scanner.inp.length < d)
    (hf : l.scanner.inp.length ≤ cfg.fuel) :
    Sat NoFuel (fun _ l' => Shorter l l') (AnyErr (!cfg.permissive) l) (parseMessageWith body l) := by
  unfold parseMessageWith
  refine step_expect (.with_ .kw) rfl (by simp) (by simp) (Took.refl hg) (fun x1 l1 g1 ht => ?_)
  rw [sat_position]
  refine step_expect .next rfl (by simp) (by simp) ht (fun x2 l2 g2 ht => ?_)
  rw [sat_txt]
  have hl := ht.length
  refine Sat.step ht (hbody.2 ht.good (hb.suffix ht.suffix) (by omega) (by omega)) ?_
  rintro ⟨b, c, q⟩ l3 h
  exact h.after ht

theorem fin_groupWith {l : Lexer} (hg : Good l) (hb : NoBlock l.scanner.inp) (hd : l.scanner.inp.length < d)
    (hf : l.scanner.inp.length ≤ cfg.fuel) :
    Sat NoFuel (fun _ l' => Shorter l l') (AnyErr (!cfg.permissive) l) (parseGroupFieldWith body l) := by
  unfold parseGroupFieldWith
  refine sat_nextWith hg ?_
  rw [sat_position]
  refine Sat.bind (parseLabel_sat hg) ?_
  rintro lb l1 ⟨ls, h1, ht, h2⟩
  refine step_expect (.with_ .kw) rfl (by simp) (by simp) ht (fun x2 l2 g2 ht2 => ?_)
  refine step_expect .next rfl (by simp) (by simp) ht2 (fun x3 l3 g3 ht => ?_)
  rw [sat_txt]
  refine sat_ite (fun h => ?_) (fun h => ?_)
  · trivial
  refine step_expect .next rfl (by simp) (by simp) ht (fun x4 l4 g4 ht => ?_)
  refine Sat.stepR ht (orUnexpected_sat (parseFieldNumber_sat ht.good)) ?_
  rintro num l5 ⟨ns, h5, h6, h7⟩
  have ht := ht.trans h7
  have hl := ht.length
  refine Sat.step ht (hbody.2 ht.good (hb.suffix ht.suffix) (by omega) (by omega)) ?_
  rintro ⟨b, c, q⟩ l6 h
  exact h.after ht

/-- The header of a group that was found ahead is read, so that an error occurs behind its first word. -/
theorem lost_groupWith {l : Lexer} (hg : Good l) (hb : NoBlock l.scanner.inp) (ha : GroupAhead l.scanner.inp) :
    Sat (fun _ => True) (fun _ _ => True)
      (fun _ l' => ∃ t, t <:+ l.scanner.inp ∧ t.length < l.scanner.inp.length ∧ Lost t l')
      (parseGroupFieldWith body l) := by
  have short : ∀ {l1 : Lexer}, Good l1 → l1.scanner.inp = l.scanner.inp → (nextSt .kw l1).token ≠ .eof →
      AtEnd (nextSt .kw l1).scanner.inp (nextSt .kw l1) ∧ (nextSt .kw l1).scanner.inp <:+ l.scanner.inp ∧
      (nextSt .kw l1).scanner.inp.length < l.scanner.inp.length := by
    intro l1 hg1 hi ht
    have := next_took hg1 (m := .kw) rfl ht
    have h2 := this.length
    simp only [List.length_cons, List.length_nil] at h2
    rw [← hi]
    exact ⟨⟨this.good, List.suffix_refl _⟩, this.suffix, by omega⟩
  have wrap : ∀ {α : Type} {t : Str} {f : P α} {l1 : Lexer}, t <:+ l.scanner.inp → t.length < l.scanner.inp.length →
      AtEnd t l1 → Run (AtEnd t) (AtEnd t) (Lost t) f → Sat (fun _ => True) (fun _ _ => True)
        (fun _ l' => ∃ t, t <:+ l.scanner.inp ∧ t.length < l.scanner.inp.length ∧ Lost t l') (f l1) := by
    intro α t f l1 h1 h2 h3 h4
    exact (h4.sat l1 h3).mono (fun _ _ _ => trivial) (fun _ l' h => ⟨t, h1, h2, h⟩)
  unfold parseGroupFieldWith
  refine sat_nextWith hg ?_
  rw [sat_position]
  refine Sat.bind (parseLabel_sat hg) ?_
  rintro lb l1 ⟨ls, -, ht, h2⟩
  by_cases hls : ls = []
  · obtain ⟨n1, n2, n3, rfl⟩ := h2 hls
    have hk : (lex .kw l.scanner.inp).token = .kGroup := by
      rcases ha with ⟨h | h | h, _⟩ | ⟨_, h, _⟩
      · exact absurd h n1
      · exact absurd h n2
      · exact absurd h n3
      · exact h
    have hk' : (nextSt .kw (putBack .kw l)).token = .kGroup := by
      rw [(back_putBack hg .kw).token]; exact hk
    obtain ⟨k1, k2, k3⟩ := short (good_putBack hg .kw) rfl (by rw [hk']; simp)
    have hr := hbody.1 (hb.suffix k2)
    refine Sat.bind (Q := fun _ l' => l' = nextSt .kw (putBack .kw l)) ?_ ?_
    · unfold expect
      refine sat_nextWith (good_putBack hg .kw) ?_
      rw [sat_tok]
      refine sat_ite (fun h => rfl) (fun h => absurd hk' h)
    · rintro - _ rfl
      refine wrap k2 k3 k1 ?_
      run
  · have hs := Shorter.of ht hls
    have hr := hbody.1 (hb.suffix hs.atEnd.suffix)
    refine wrap hs.atEnd.suffix hs.lt ⟨hs.atEnd.good, List.suffix_refl _⟩ ?_
    run

theorem fin_fieldStmt {cs : List Comment} {l : Lexer} (hg : Good l) (hb : NoBlock l.scanner.inp)
    (hd : l.scanner.inp.length < d) (hf : l.scanner.inp.length ≤ cfg.fuel) :
    Sat NoFuel (fun r l' => r ≠ .nil ∧ (∀ c, r ≠ .comment c) ∧ Shorter l l') (AnyErr (!cfg.permissive) l)
      (fieldStmt cfg body cs l) := by
  unfold fieldStmt
  refine Sat.bind (peekIsGroup_sat hg) ?_
  rintro b l1 ⟨hbk, hgr⟩
  have ht := hbk.took hg
  have hl := ht.length
  refine sat_ite (fun h => ?_) (fun h => ?_)
  · have e : l1.scanner.inp = l.scanner.inp := hbk.inp
    refine Sat.bind (Q := fun r l2 => match r with
        | .ok _ => Shorter l l2
        | .error _ => ∃ t, t <:+ l.scanner.inp ∧ t.length < l.scanner.inp.length ∧ Lost t l2)
      (Sat.attempt (sat_both (fin_groupWith hbody ht.good (hb.suffix ht.suffix) (by omega) (by omega))
        (lost_groupWith hbody ht.good (hb.suffix ht.suffix) (by rw [e]; exact hgr.1 h))) ?_ ?_) ?_
    · rintro x l2 ⟨h1, _⟩
      exact h1.after ht
    · rintro _ l2 ⟨_, h1⟩
      rw [e] at h1
      exact h1
    rintro (e | x) l2 hr
    · obtain ⟨t, h1, h2, h3⟩ := hr
      refine (sat_both (recoverEmpty_good (H := NoFuel) h3.good) ((trk_recover (hb.suffix h1) _).sat _ h3)).mono ?_
        (fun _ _ _ => trivial)
      rintro r l3 ⟨⟨rfl, _⟩, h4⟩
      have := h4.suffix.length_le
      exact ⟨by simp, by simp, ⟨h4.good, h4.suffix.trans h1⟩, by omega⟩
    · exact ⟨by simp, by simp, hr⟩
  · refine Sat.bind (Q := fun r l2 => match r with
        | .ok _ => Shorter l l2
        | .error e => FailC (!cfg.permissive) (fun _ => True) l e l2)
      (Sat.attempt (parseField_cut ht.good) ?_ ?_) ?_
    · rintro x l2 ⟨ts, h3, h4⟩
      exact (Shorter.of h4 (spans_ne (fieldToks_spans h3))).after ht
    · rintro e l2 h
      exact h.trans ht (fun _ _ _ => trivial)
    rintro (e | x) l2 hr
    · refine (recoverEmpty_sat hr).mono ?_ (fun _ _ _ => trivial)
      rintro r l2 ⟨ts, x, rfl, h3, h4, h5, h6⟩
      exact ⟨by simp, by simp, Shorter.of h4 (by simp)⟩
    · exact ⟨by simp, by simp, hr⟩

theorem fin_messageStmt {cs : List Comment} {t : Token} {l : Lexer} (hg : Good l) (hb : NoBlock l.scanner.inp)
    (hd : l.scanner.inp.length < d) (hf : l.scanner.inp.length ≤ cfg.fuel) :
    Sat NoFuel (fun r l' => r ≠ .nil ∧ (∀ c, r ≠ .comment c) ∧ Shorter l l') (AnyErr (!cfg.permissive) l)
      (messageStmt cfg body cs t l) := by
  unfold messageStmt
  split
  · refine Sat.bind' (parseEnum_sat (k := .message) (.inr rfl) hg) (fun _ _ _ => trivial) ?_
    rintro x l1 ⟨h0, ts, h1, h2⟩
    exact ⟨by simp, by simp, Shorter.of (h2 cs).took (toks_ne (h1 cs) (by simp) (by simp))⟩
  · refine Sat.bind (fin_messageWith hbody hg hb hd hf) ?_
    rintro x l1 h
    exact ⟨by simp, by simp, h⟩
  · refine Sat.bind' (parseOption_sat hg) (fun _ _ _ => trivial) ?_
    rintro x l1 ⟨ts, h1, h2⟩
    exact ⟨by simp, by simp, Shorter.of h2 (spans_ne (optionToks_spans h1))⟩
  · refine Sat.bind' (parseOneof_sat hg) (fun _ _ _ => trivial) ?_
    rintro x l1 ⟨ts, h1, h2, h0, h3⟩
    exact ⟨by simp, by simp, Shorter.of h2 (toks_ne (Toks.oneof _ _ h1) (by simp) (by simp))⟩
  · refine Sat.bind' (parseMapField_sat hg) (fun _ _ _ => trivial) ?_
    rintro x l1 ⟨ts, h1, h2⟩
    exact ⟨by simp, by simp, Shorter.of h2 (spans_ne (mapFieldToks_spans h1))⟩
  · refine Sat.bind' (parseExtend_sat (k := .message) (.inr rfl) hg) (fun _ _ _ => trivial) ?_
    rintro x l1 ⟨h0, ts, h1, h2⟩
    exact ⟨by simp, by simp, Shorter.of (h2 cs).took (toks_ne (h1 cs) (by simp) (by simp))⟩
  · refine Sat.bind' (parseReserved_sat (sm := !cfg.permissive) (G := cfg.gram) rfl hg) (fun _ _ _ => trivial) ?_
    rintro x l1 ⟨ts, h1, h2⟩
    exact ⟨by simp, by simp, Shorter.of h2 (spans_ne (reservedToks_spans h1))⟩
  · refine Sat.bind' (parseExtensions_sat (sm := !cfg.permissive) hg) (fun _ _ _ => trivial) ?_
    rintro x l1 ⟨ts, h1, h2, h0, h3⟩
    exact ⟨by simp, by simp, Shorter.of h2 (toks_ne (G := cfg.gram) (Toks.extensions _ _ h1) (by simp) (by simp))⟩
  · exact fin_fieldStmt hbody hg hb hd hf

theorem fin_messageLoop {il : Option Comment} (n : Nat) :
    ∀ {l : Lexer} {vs : List Visitee}, Good l → NoBlock l.scanner.inp → l.scanner.inp.length < n →
    l.scanner.inp.length < d → l.scanner.inp.length ≤ cfg.fuel →
    Sat NoFuel (fun _ l' => Shorter l l') (AnyErr (!cfg.permissive) l) (messageLoop cfg body il n vs l) := by
  induction n with
  | zero => intro l vs _ _ h; omega
  | succ n ih =>
    intro l vs hg hb hn hd hf
    unfold messageLoop
    refine stepI_comments (TookI.refl hg) (fun cs l1 ht hnc => ?_)
    simp only [List.nil_append] at ht
    refine sat_peekKeyword ht.good ?_
    have hbk := back_putBack ht.good .kw
    have hnc := hnc.back hbk
    have ht := ht.back hbk
    have htk : Took l [] (putBack .kw l1) := by simpa using ht.took
    have hl := htk.length
    refine sat_ite (fun h => ?_) (fun h => ?_)
    · refine (closeBody_sat ht.good (by rw [hbk.token]; exact h) hnc).mono ?_ (fun _ _ h => h)
      rintro r l' ⟨cl, h1, h2, h3, h4⟩
      exact (Shorter.of h4.took (by obtain ⟨_, _, h, _⟩ := h3.closed.last; rw [h]; simp)).after htk
    · generalize putBack .kw l1 = l1' at ht hnc htk hl
      refine Sat.bind (fin_messageStmt hbody ht.good (hb.suffix htk.suffix) (by omega) (by omega)) ?_
      rintro v l2 ⟨h2, h3, h4⟩
      have h4 := h4.after htk
      refine Sat.bind (maybeScan_sat h4.atEnd.good h2 h3) ?_
      rintro v' l3 ⟨o, rfl, ho⟩
      have h5 := h4.before ho.nil
      have := h5.lt
      refine (ih h5.atEnd.good (hb.suffix h5.atEnd.suffix) (by omega) (by omega) (by omega)).mono ?_ (fun _ _ _ => trivial)
      rintro r l' h6
      exact ⟨⟨h6.atEnd.good, h6.atEnd.suffix.trans h5.atEnd.suffix⟩, by have := h6.lt; omega⟩

theorem fin_messageBodyWith : BodyFin cfg (d + 1) (messageBodyWith cfg body) := by
  refine ⟨fun hb => trk_messageBodyWith hb (hbody.1 hb), ?_⟩
  intro l hg hb hd hf
  unfold messageBodyWith
  refine step_expect .next rfl (by simp) (by simp) (Took.refl hg) (fun x1 l1 g1 ht => ?_)
  have hl := ht.length
  simp at hl
  refine Sat.bind (parseInline_sat ht.good) (fun c l2 hi => ?_)
  have ht2 := ht.nil_trans hi.nil
  refine sat_next ht2.good ?_
  rw [sat_tok]
  refine sat_ite (fun h => ?_) (fun h => ?_)
  · have g := got_next (m := {}) rfl h (by simp) (by simp)
    have ht3 := next_took ht2.good (m := {}) rfl (by rw [h]; simp)
    refine Sat.bind (blockLastPos_sat ht3.good (g.punct rfl) rfl
      (got_line rfl (by simp) (by simp) g (g.punct rfl) (by decide))) ?_
    rintro q l5 ⟨ts, h1, h2⟩
    exact Shorter.of ((ht2.trans ht3).trans h1.took) (by simp)
  · refine sat_unNext ?_
    have hbk := back_putBack ht2.good {}
    have ht3 := ht2.nil_trans (hbk.took ht2.good)
    have hl := ht3.length
    simp at hl
    refine (fin_messageLoop hbody _ ht3.good (hb.suffix ht3.suffix) (by omega) (by omega) (by omega)).mono ?_
      (fun _ _ _ => trivial)
    intro _ _ h
    exact h.after ht3

end

theorem fin_messageBody {cfg : Cfg} (d : Nat) : BodyFin cfg d (messageBody cfg d) := by
  induction d with
  | zero => exact ⟨fun _ => trk_stop _, fun _ _ h => by omega⟩
  | succ d ih => exact fin_messageBodyWith ih

/-! ## Files -/

theorem fin_setInline {v : Visitee} {c : Comment} {l : Lexer} {E : Err → Lexer → Prop} :
    Sat NoFuel (fun _ l' => l' = l) E (setInlineComment v c l) := by
  unfold setInlineComment
  cases v <;> first | rfl | (intro h; cases h)

theorem fin_maybeScan {v : Visitee} {l : Lexer} (hg : Good l) {E : Err → Lexer → Prop} :
    Sat NoFuel (fun _ l' => Took l [] l') E (maybeScanInlineComment v l) := by
  unfold maybeScanInlineComment
  refine Sat.bind (parseInline_sat hg) (fun c l1 hi => ?_)
  cases c with
  | none => exact hi.nil
  | some c =>
    refine fin_setInline.mono ?_ (fun _ _ h => h)
    rintro _ _ rfl
    exact hi.nil

theorem fin_protoStmt {cfg : Cfg} {cs : List Comment} {t : Token} {l : Lexer} (hg : Good l)
    (hb : NoBlock l.scanner.inp) (hf : l.scanner.inp.length < cfg.fuel) :
    Sat NoFuel (fun _ l' => Shorter l l') (AnyErr (!cfg.permissive) l) (protoStmt cfg cs t l) := by
  unfold protoStmt
  split
  · refine Sat.bind' (parseImport_sat (sm := !cfg.permissive) (G := cfg.gram) rfl hg) (fun _ _ _ => trivial) ?_
    rintro x l1 ⟨ts, h1, h2⟩
    exact Shorter.of h2 (spans_ne (importToks_spans h1))
  · refine Sat.bind' (parsePackage_sat (sm := !cfg.permissive) hg) (fun _ _ _ => trivial) ?_
    rintro x l1 ⟨ts, h1, h2⟩
    exact Shorter.of h2 (spans_ne (packageToks_spans h1))
  · refine Sat.bind' (parseOption_sat hg) (fun _ _ _ => trivial) ?_
    rintro x l1 ⟨ts, h1, h2⟩
    exact Shorter.of h2 (spans_ne (optionToks_spans h1))
  · exact Sat.bind (fin_messageWith (fin_messageBody _) hg hb hf (by omega)) (fun _ _ h => h)
  · refine Sat.bind' (parseEnum_sat (k := .file) (.inl rfl) hg) (fun _ _ _ => trivial) ?_
    rintro x l1 ⟨h0, ts, h1, h2⟩
    exact Shorter.of (h2 cs).took (toks_ne (h1 cs) (by simp) (by simp))
  · refine Sat.bind' (parseService_sat hg) (fun _ _ _ => trivial) ?_
    rintro x l1 ⟨h0, ts, h1, h2⟩
    exact Shorter.of (h2 cs).took (toks_ne (h1 cs) (by simp) (by simp))
  · refine Sat.bind' (parseExtend_sat (k := .file) (.inl rfl) hg) (fun _ _ _ => trivial) ?_
    rintro x l1 ⟨h0, ts, h1, h2⟩
    exact Shorter.of (h2 cs).took (toks_ne (h1 cs) (by simp) (by simp))
  · refine Sat.bind (readEmpty_next (sm := true) hg (fun _ _ _ => trivial)) ?_
    rintro - l1 ⟨x, h1, h2, h3, h4⟩
    exact Shorter.of h2 (by simp)

theorem fin_protoLoop {cfg : Cfg} (n : Nat) :
    ∀ {l : Lexer} {vs : List Visitee}, Good l → NoBlock l.scanner.inp → l.scanner.inp.length < n →
    l.scanner.inp.length < cfg.fuel →
    Sat NoFuel (fun _ _ => True) (AnyErr (!cfg.permissive) l) (protoLoop cfg n vs l) := by
  induction n with
  | zero => intro l vs _ _ h; omega
  | succ n ih =>
    intro l vs hg hb hn hf
    unfold protoLoop
    refine stepI_comments (TookI.refl hg) (fun cs l1 ht hnc => ?_)
    simp only [List.nil_append] at ht
    refine sat_isEOF ht.good ?_
    have ht := ht.back (back_putBack ht.good {})
    refine sat_ite (fun h => trivial) (fun h => ?_)
    generalize putBack {} l1 = l1' at ht
    refine sat_peekKeyword ht.good ?_
    have ht := ht.back (back_putBack ht.good .kw)
    generalize (nextSt Mode.kw l1').token = t
    generalize putBack .kw l1' = l2 at ht
    have htk : Took l [] l2 := by simpa using ht.took
    have hl := htk.length
    refine Sat.bind (fin_protoStmt htk.good (hb.suffix htk.suffix) (by omega)) ?_
    rintro ⟨now, v⟩ l3 h3
    have h3 := h3.after htk
    refine Sat.bind (fin_maybeScan h3.atEnd.good) ?_
    rintro v' l4 h4
    have h5 := h3.before h4
    have := h5.lt
    exact ih h5.atEnd.good (hb.suffix h5.atEnd.suffix) (by omega) (by omega)

theorem fin_parseProto {cfg : Cfg} {l : Lexer} (hg : Good l) (hb : NoBlock l.scanner.inp)
    (hf : l.scanner.inp.length < cfg.fuel) :
    Sat NoFuel (fun _ _ => True) (AnyErr (!cfg.permissive) l) (parseProto cfg l) := by
  unfold parseProto
  refine Sat.bind (parseBOM_sat hg) ?_
  rintro - l1 ⟨bom, -, ht⟩
  refine stepI_comments ht (fun cs l2 ht2 hnc => ?_)
  refine Sat.stepR ht2.took (syntaxPart_sat ht2.good) ?_
  rintro s l3 ⟨_, ss, _, ht3, _⟩
  have ht := ht2.trans ht3
  refine Sat.stepR ht.took (editionPart_sat ht.good) ?_
  rintro e l4 ⟨_, es, _, ht4, _⟩
  have ht := (ht.trans ht4).took
  have hl := ht.length
  unfold parseProtoBody
  refine Sat.bind (fin_protoLoop _ ht.good (hb.suffix ht.suffix) (by omega) (by omega)) ?_
  intro _ _ _
  rw [sat_position]
  trivial

end Verif.Parser
