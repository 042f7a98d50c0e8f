import Verif.Proofs.ViableMessage
import Verif.Spec.Begun
import Verif.Props.Parse

/-!
# What stands before the position of an error (C50)
-/

set_option backward.isDefEq.respectTransparency false
set_option backward.dsimp.instances true

namespace Verif.Props
open Scanner Spec Lexer

theorem before_blames {G : Gram} {f input : Str} {p : Position}
    (h : Before (Tardy (Parser.ProtoV G)) (Lexer.new input f) p) : Blames G f input p := by
  obtain ⟨ts, l, g, r, cs, ⟨_, ⟨c, h1, h2, h3, _⟩, _⟩, hB, h5, h6, rfl⟩ := h
  refine ⟨c, g, r, ts, cs, h5 ▸ h1, ?_, h6, ?_, hB.imp id id⟩
  · exact lay_text (pre := []) (h5 ▸ h3)
  · have h2 : l.scanner.pos = (SPos.new f).advanceAll c := h2
    rw [h2, ← SPos.advanceAll_append, SPos.advanceAll_new]

theorem errsAt_all {G : Gram} {f input : Str} {e : Err}
    (h : ErrsAt false (Tardy (Parser.ProtoV G)) (Lexer.new input f) e) : ∀ p ∈ positions e, Blames G f input p := by
  induction h with
  | single p s fd h =>
    intro q hq
    simp only [positions, List.mem_singleton] at hq
    subst hq
    exact before_blames h
  | pair a b _ _ iha ihb =>
    intro q hq
    simp only [positions, List.mem_append] at hq
    exact hq.elim (iha q) (ihb q)
  | first a b h => simp at h

theorem errsAt_lead {sm : Bool} {G : Gram} {f input : Str} {e : Err}
    (h : ErrsAt sm (Tardy (Parser.ProtoV G)) (Lexer.new input f) e) : Blames G f input (leadPos e) := by
  induction h with
  | single p s fd h => exact before_blames h
  | pair a b _ _ iha _ => exact iha
  | first a b _ _ iha => exact iha

theorem parse_via {input : Str} (hn : NulFree input) {fuel : Nat}
    {options : List ParseOpt} {e : Err} (h : parse fuel input options = .error e) (hc : SettledErr options input e) :
    ErrsAt (!(configOf options).permissive) (Tardy (Parser.ProtoV (gramOf options)))
      (Lexer.new input (fileOf options)) e := by
  rcases hc with hg | ⟨n, l, h1⟩
  · obtain ⟨l, h1⟩ := parse_err h
    have := Parser.parseProto_via (calm := false) (cfg := cfgOf fuel options) (good_new (f := fileOf options) hn) (.inl hg)
    rw [Parser.parseProtoK_false] at this
    have h1 : Parser.parseProto (cfgOf fuel options) (Lexer.new input (fileOf options)) = .err e l := h1
    rw [h1] at this
    exact this
  · have := Parser.parseProto_via (calm := true) (cfg := cfgOf n options) (good_new (f := fileOf options) hn) (.inr rfl)
    rw [h1] at this
    exact this

/-- C50, in permissive mode: what stands before a position in an error begins a file.  Missing: runs in which a
group failed. -/
theorem error_begun_partial {input : Str} (hn : NulFree input) {fuel : Nat}
    {options : List ParseOpt} (hp : (configOf options).permissive = true) {e : Err}
    (h : parse fuel input options = .error e) (hc : SettledErr options input e) :
    ∀ p ∈ positions e, Blames (gramOf options) (fileOf options) input p := by
  have := parse_via hn h hc
  rw [hp] at this
  exact errsAt_all this

/-- C50, in both modes: what stands before the leading position of an error begins a file.  Missing: as above. -/
theorem error_lead_begun_partial {input : Str} (hn : NulFree input) {fuel : Nat}
    {options : List ParseOpt} {e : Err} (h : parse fuel input options = .error e) (hc : SettledErr options input e) :
    Blames (gramOf options) (fileOf options) input (leadPos e) :=
  errsAt_lead (parse_via hn h hc)

/-! ### Not all spellings begin a file -/

theorem toks_message {G : Gram} {v : Visitee} {ts : List Tok} (h : Toks G .file v ts) :
    ts = [] ∨ (∃ w ws, words ts = w :: ws ∧ w ≠ c!"message") ∨ ∃ w ws, words ts = c!"message" :: w :: ws ∧ Word w := by
  generalize hk : Ctx.file = k at h
  cases h with
  | comment => exact .inl rfl
  | nil => exact .inl rfl
  | empty _ e t h => exact .inr (.inl ⟨_, _, rfl, by rw [h]; decide⟩)
  | junk _ e ts t _ h => subst hk; obtain ⟨_, _, _, _, h⟩ := h; exact h.elim
  | importStmt x ts h => obtain ⟨_, _, _, h⟩ := h; exact .inr (.inl ⟨_, _, h.1, by decide⟩)
  | package x ts h => obtain ⟨_, _, h⟩ := h; exact .inr (.inl ⟨_, _, h.1, by decide⟩)
  | option _ x ts _ h => obtain ⟨_, _, _, _, h⟩ := h; exact .inr (.inl ⟨_, _, h.1, by decide⟩)
  | message _ x hd bs cl _ h1 h2 =>
    exact .inr (.inr ⟨_, c!"{" :: words bs ++ words cl, by simp only [words_append, h1]; simp, h2⟩)
  | enum _ x hd bs cl _ h1 =>
    exact .inr (.inl ⟨_, _, by simp only [words_append, h1, List.cons_append]; rfl, by decide⟩)
  | extend _ x ws hd bs cl _ _ h1 =>
    exact .inr (.inl ⟨_, _, by simp only [words_append, h1, List.cons_append]; rfl, by decide⟩)
  | service x hd bs cl h1 =>
    exact .inr (.inl ⟨_, _, by simp only [words_append, h1, List.cons_append]; rfl, by decide⟩)
  | field _ x ts h => subst hk; simp at h
  | group | enumField | oneof | mapField | extensions | rpc => simp at hk
  | reserved _ x ts h => subst hk; simp at h

theorem body_message {G : Gram} : ∀ {vs : List Visitee} {ts : List Tok} {w : Str} {ws : List Str},
    Spec.Body G .file vs ts → words ts = c!"message" :: w :: ws → Word w := by
  intro vs
  induction vs with
  | nil =>
    intro ts w ws h hw
    cases h
    simp at hw
  | cons v vs ih =>
    intro ts w ws h hw
    cases h with
    | cons _ _ us _ us' h1 h2 =>
      rcases toks_message h1 with rfl | ⟨x, xs, e, hx⟩ | ⟨x, xs, e, hx⟩
      · exact ih h2 (by simpa using hw)
      · simp only [words_append, e, List.cons_append, List.cons.injEq] at hw
        exact absurd hw.1 hx
      · simp only [words_append, e, List.cons_append, List.cons.injEq] at hw
        exact hw.2.1 ▸ hx

/-- In a file that starts with `message`, a word follows. -/
theorem begun_message {G : Gram} {w : Str} {ws : List Str} (h : Begun G (c!"message" :: w :: ws)) : Word w := by
  obtain ⟨q, ts, more, ⟨bom, ss, es, bs, h1, h2, h3, h4⟩, h5⟩ := h
  have e1 : bom = [] := by
    rcases h1 with h1 | h1
    · exact h1
    · simp only [words_append, h1, List.cons_append, List.cons.injEq] at h5
      exact absurd h5.1 (by decide)
  subst e1
  generalize q.syntax_ = s at h2
  generalize q.edition = e at h3
  cases h2 with
  | some x ss h =>
    obtain ⟨_, _, _, _, _, _, h⟩ := h
    simp only [words_append, h.1, List.cons_append, List.cons.injEq] at h5
    simp at h5
  | none =>
    cases h3 with
    | some x es h =>
      obtain ⟨_, _, _, _, _, _, h⟩ := h
      simp only [words_append, h.1, List.cons_append, List.cons.injEq] at h5
      simp at h5
    | none => exact body_message h4 (by simpa using h5)

/-- Nothing that starts like this begins a file. -/
example {G : Gram} : ¬ Begun G [c!"message", c!"5"] := by
  intro h
  cases begun_message h with
  | mk _ _ h => simp [WordStart, letters] at h

/-- C50 on an error with two positions: the tokens before them begin a file. -/
example : NulFree c!"message M {\n int32 a = b;" ∧ NoGroup c!"message M {\n int32 a = b;" ∧
    errPositions (parse 30 c!"message M {\n int32 a = b;") =
      [{ offset := 23, line := 2, column := 12 }, { offset := 22, line := 2, column := 11 }] := by
  refine ⟨by unfold NulFree; decide, by unfold NoGroup; decide, by decide +kernel⟩

/-- C50 on an input that ends directly behind its last token, inside a type. -/
example : NulFree c!"option a = 1;message M { map<int32, .a." ∧ NoGroup c!"option a = 1;message M { map<int32, .a." ∧
    errPositions (parse 40 c!"option a = 1;message M { map<int32, .a.") =
      [{ offset := 39, line := 1, column := 40 }] := by
  refine ⟨by unfold NulFree; decide, by unfold NoGroup; decide, by decide +kernel⟩

/-- C50, behind a declaration: the position (offset 53) is behind the offending `x` (offset 52). -/
theorem error_begun_violation :
    errPositions (parse 60 c!"message M { extensions 1 [declaration = {number: 1} x ];}") =
      [{ offset := 53, line := 1, column := 54 }] := by
  decide +kernel

end Verif.Props
