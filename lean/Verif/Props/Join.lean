import Verif.Props.Complete

/-!
# Joining files (C77)

The text of a file followed, on a line of its own, by the text of a file without syntax and edition.
-/

set_option backward.isDefEq.respectTransparency false
set_option backward.dsimp.instances true

namespace Verif.Props
open Spec

/-- The first file with the elements of the second behind its own. -/
def joined (p p' : Proto) : Proto := { p with protoBody := p.protoBody ++ p'.protoBody }

theorem laid_white {ws : List Str} {t : Str} (h : Laid ws t) {c : Char} (hc : White c) : Laid ws (c :: t) := by
  cases h with
  | nil g cs hg => exact .nil _ _ (.space c _ _ hc hg)
  | cons g cs w ws d hg ha hd => exact .cons _ _ w ws d (.space c _ _ hc hg) ha hd

theorem laid_comment {ws : List Str} {t raw text : Str} (h : Laid ws t) (hc : ∀ r, Spec.Comment r raw text) :
    Laid ws (raw ++ t) := by
  cases h with
  | nil g cs hg => exact .nil _ _ (.comment raw text _ _ rfl (hc _) hg)
  | cons g cs w ws d hg ha hd =>
    have := Laid.cons _ _ w ws d (.comment raw text _ _ rfl (hc _) hg) ha hd
    rwa [List.append_assoc] at this

theorem white_newline : White '\n' := by unfold White; decide

/-- The gap at the end of the first text, before a line break and the second text. -/
theorem laid_gap {ws : List Str} {t : Str} (h : Laid ws t) {g : Str} {cs : List (Str × Str)} (hg : Gap true [] g cs) :
    Laid ws (g ++ '\n' :: t) := by
  induction hg with
  | nil => exact laid_white h white_newline
  | space c g cs hc _ ih => exact laid_white ih hc
  | comment raw text g cs _ hc _ ih =>
    rw [List.append_assoc]
    cases hc with
    | line b hb => exact laid_comment ih (fun r => .line b hb)
    | block b hb => exact laid_comment ih (fun r => .block b hb)
    | last b hb he =>
      have : g = [] := by simpa using he
      subst this
      have := laid_comment h (fun r => Spec.Comment.line (rest := r) b hb)
      simpa using this

theorem gap_more {com : Bool} {r r' g : Str} {cs : List (Str × Str)} (h : Gap com r g cs) (hr : r ≠ []) :
    Gap com r' g cs := by
  induction h with
  | nil => exact .nil
  | space c g cs hc _ ih => exact .space c g cs hc ih
  | comment raw text g cs hb hc _ ih =>
    refine .comment raw text g cs hb ?_ ih
    cases hc with
    | line b hb => exact .line b hb
    | block b hb => exact .block b hb
    | last b hb he => exact absurd (List.append_eq_nil_iff.1 he).2 hr

theorem apart_more {w c t : Str} (h : Apart w c) : Apart w (c ++ '\n' :: t) := by
  have hc : ∀ {p : Char → Prop}, ¬ p '\n' → NotNext p c → NotNext p (c ++ '\n' :: t) := by
    intro p hp h d hd
    cases c with
    | nil => simp at hd; exact hd ▸ hp
    | cons a c => exact h d (by simpa using hd)
  refine ⟨h.ne, ⟨?_, ?_⟩, h.slash, fun hw => hc (by unfold WordChar; decide) (h.word hw),
    fun hn hw => hc (by decide) (h.dot hn hw), h.zero⟩
  · intro d hd
    refine h.solid.1 d ?_
    cases w with
    | nil => exact absurd rfl h.ne
    | cons a w => simpa using hd
  · intro raw text rest e hc
    have : raw.head? = some '/' := by cases hc <;> rfl
    refine h.slash ?_
    cases w with
    | nil => exact absurd rfl h.ne
    | cons a w =>
      cases raw with
      | nil => cases this
      | cons b raw =>
        simp only [List.cons_append, List.cons.injEq] at e
        rw [← this, e.1]
        rfl

/-- Layouts can be joined by a line break. -/
theorem laid_join {ws ws' : List Str} {t t' : Str} (h : Laid ws t) (h' : Laid ws' t') :
    Laid (ws ++ ws') (t ++ '\n' :: t') := by
  induction h with
  | nil g cs hg => exact laid_gap h' hg
  | cons g cs w ws c hg ha _ ih =>
    have hw : w ++ c ≠ [] := fun e => ha.ne (List.append_eq_nil_iff.1 e).1
    have := Laid.cons g cs w (ws ++ ws') (c ++ '\n' :: t') (gap_more hg hw) (apart_more ha) ih
    simpa using this

theorem body_head {G : Gram} {vs : List Visitee} : ∀ {ts : List Tok}, Spec.Body G .file vs ts →
    (∀ e, .emptyStatement e ∉ vs) → (words ts).head? ≠ some c!";" := by
  have hw : ∀ {ts us : List Tok} {w : Str} {ws : List Str}, words ts = w :: ws → w ≠ c!";" →
      (words (ts ++ us)).head? ≠ some c!";" := by
    intro ts us w ws h hw
    simp only [words, List.map_append] at h ⊢
    rw [h]
    simpa using hw
  induction vs with
  | nil => intro ts h _; cases h; simp [words]
  | cons v vs ih =>
    intro ts h he
    cases h with
    | cons _ v ts1 vs ts2 h1 h2 h3 =>
      have ih := ih h2 (fun e h => he e (by simp [h]))
      cases h1 with
      | comment => exact ih
      | nil => exact ih
      | empty _ e _ _ => exact absurd (by simp) (he e)
      | junk _ e _ _ _ _ _ => exact absurd (by simp) (he e)
      | importStmt x _ h =>
        obtain ⟨_, ms, _, h⟩ := h
        exact hw h.1 (by decide)
      | package x _ h =>
        obtain ⟨ws, _, h⟩ := h
        exact hw h.1 (by decide)
      | option _ x _ _ h =>
        obtain ⟨ns, cs, _, _, h⟩ := h
        exact hw h.1 (by decide)
      | message _ x hd bs cl _ h =>
        rw [List.append_assoc, List.append_assoc]
        exact hw h (by decide)
      | enum _ x hd bs cl _ h =>
        rw [List.append_assoc, List.append_assoc]
        exact hw h (by decide)
      | service x hd bs cl h =>
        rw [List.append_assoc, List.append_assoc]
        exact hw h (by decide)
      | extend _ x ws hd bs cl _ _ h =>
        rw [List.append_assoc, List.append_assoc]
        exact hw h (by decide)
      | field _ _ _ h => rcases h with h | h <;> cases h
      | reserved _ _ _ h => rcases h with h | h <;> cases h

theorem body_join {G : Gram} {vs vs' : List Visitee} {ts' : List Tok} (h' : Spec.Body G .file vs' ts')
    (hh : (words ts').head? ≠ some c!";") : ∀ {ts : List Tok}, Spec.Body G .file vs ts →
    Spec.Body G .file (vs ++ vs') (ts ++ ts') := by
  induction vs with
  | nil => intro ts h; cases h; exact h'
  | cons v vs ih =>
    intro ts h
    cases h with
    | cons _ v ts1 vs ts2 h1 h2 h3 =>
      rw [List.append_assoc]
      refine .cons _ _ _ _ _ h1 (ih h2) (fun a b c => ?_)
      cases ts2 with
      | nil => exact hh
      | cons t ts2 => exact h3 a b c

/-- C77: the texts of two files, with no semicolons of their own, the second without syntax, edition and byte order
mark, joined by a line break: the tree is that of the first with the elements of the second behind its own, but for
comments and positions. -/
theorem join_files {input input' : Str} (hn : NulFree input) (hn' : NulFree input') {options : List ParseOpt}
    {q q' : Proto} {ts ts' : List Tok} (hq : ProtoToks (grammarOf options) q ts) (hs : NoLoneSemi q)
    (hl : Laid (words ts) input) (hq' : Spec.Body (grammarOf options) .file q'.protoBody ts')
    (he : q'.syntax_ = none ∧ q'.edition = none) (hs' : NoLoneSemi q') (hl' : Laid (words ts') input') :
    ∃ p p' p'', Parses input options (.ok p) ∧ Parses input' options (.ok p') ∧
      Parses (input ++ '\n' :: input') options (.ok p'') ∧
      bareProto p'' = joined (bareProto p) (bareProto p') := by
  obtain ⟨p, h1, h2⟩ := parse_plain hn hq hs hl (Nat.lt_succ_self _)
  have hq2 : ProtoToks (grammarOf options) q' ts' :=
    .mk q' [] [] [] ts' (.inl rfl) (he.1 ▸ .none) (he.2 ▸ .none) hq'
  obtain ⟨p', h3, h4⟩ := parse_plain hn' hq2 hs' hl' (Nat.lt_succ_self _)
  have hh := body_head hq' (fun e h => (hs' _ h).2 e rfl)
  have hq3 : ProtoToks (grammarOf options) (joined q q') (ts ++ ts') := by
    cases hq with
    | mk bom ss es bs hb k1 k2 k3 =>
      have := ProtoToks.mk (joined q q') bom ss es (bs ++ ts') hb k1 k2 (body_join hq' hh k3)
      simpa using this
  have hs3 : NoLoneSemi (joined q q') := by
    intro v hv
    rcases List.mem_append.1 hv with hv | hv
    · exact hs v hv
    · exact hs' v hv
  have hl3 : Laid (words (ts ++ ts')) (input ++ '\n' :: input') := by
    have := laid_join hl hl'
    simpa [words] using this
  have hn3 : NulFree (input ++ '\n' :: input') := by
    intro c hc
    rcases List.mem_append.1 hc with hc | hc
    · exact hn c hc
    · rcases List.mem_cons.1 hc with rfl | hc
      · decide
      · exact hn' c hc
  obtain ⟨p'', h5, h6⟩ := parse_plain hn3 hq3 hs3 hl3 (Nat.lt_succ_self _)
  refine ⟨p, p', p'', ⟨nofun, _, h1⟩, ⟨nofun, _, h3⟩, ⟨nofun, _, h5⟩, ?_⟩
  rw [h6, h2, h4]
  simp [bareProto, joined, bareAll_append]

/-! ## The theorem applies, and a semicolon of its own is needed to break it -/

/-- `package p ;` -/
def packFile : Proto :=
  { syntax_ := none, edition := none, protoBody := [.package { name := c!"p", info := {} }], metaFilename := [] }

theorem pack_laid : Laid [c!"package", c!"p", c!";"] c!"package p;// the end" := by
  refine .cons [] _ _ _ c!" p;// the end" .nil (Standing.apart (standing_of (by decide)) (by unfold WordChar; decide)) ?_
  refine .cons [' '] _ _ _ c!";// the end" (.space ' ' [] [] white_blank .nil)
    (Standing.apart (standing_of (by decide)) (by unfold WordChar; decide)) ?_
  refine .cons [] _ _ _ c!"// the end" .nil (Standing.apart (standing_of (by decide)) (by unfold WordChar; decide)) ?_
  exact .nil c!"// the end" _ (.comment c!"// the end" _ [] [] rfl (.last c!" the end" (by decide) rfl) .nil)

example : ∃ p p' p'', Parses (spaced sampleWords ++ c!"// the first") [] (.ok p) ∧
    Parses c!"package p;// the end" [] (.ok p') ∧
    Parses (spaced sampleWords ++ c!"// the first\npackage p;// the end") [] (.ok p'') ∧
    bareProto p'' = joined (bareProto p) (bareProto p') := by
  have hw : ∀ w ∈ sampleWords, Standing w := by
    have key : ∀ w ∈ sampleWords, (w.headD '/').toNat ∉ whiteSpace ∧ w.headD '/' ≠ '/' ∧ w.headD '/' ≠ '0' := by
      decide +kernel
    exact fun w hw => standing_of (key w hw)
  have hl : ∀ {ws : List Str}, (∀ w ∈ ws, Standing w) → Laid ws (spaced ws ++ c!"// the first") := by
    intro ws h
    induction ws with
    | nil => exact .nil _ _ (.space '\n' _ _ white_newline
        (.comment c!"// the first" _ [] [] rfl (.last c!" the first" (by decide) rfl) .nil))
    | cons w ws ih =>
      have := Laid.cons c!" " _ w ws (spaced ws ++ c!"// the first") (.space ' ' [] [] white_blank .nil)
        ((h w (by simp)).apart (by
          intro d hd
          cases ws with
          | nil => simp [spaced] at hd; subst hd; unfold WordChar; decide
          | cons => simp [spaced] at hd; subst hd; unfold WordChar; decide)) (ih (fun w hw => h w (by simp [hw])))
      simpa [spaced] using this
  have := join_files (options := []) (input := spaced sampleWords ++ c!"// the first") (input' := c!"package p;// the end")
    (q' := packFile) (by unfold NulFree; decide +kernel) (by unfold NulFree; decide) sample_file
    (by intro v hv; simp [sampleFile] at hv; subst hv; simp) (by rw [words_tokOf]; exact hl hw)
    (.cons .file _ _ _ _ (semi_package) (.nil _) (fun _ _ => by unfold Tight; decide)) ⟨rfl, rfl⟩
    (by intro v hv; simp [packFile] at hv; subst hv; simp) (by exact pack_laid)
  simpa using this

/-- A semicolon at the start of the second file is taken for the end of the message in the first. -/
theorem join_violation : ∃ input input' p p' p'', parse 20 input [] = .ok p ∧ parse 20 input' [] = .ok p' ∧
    parse 20 (input ++ '\n' :: input') [] = .ok p'' ∧ bareProto p'' ≠ joined (bareProto p) (bareProto p') := by
  have key : (match parse 20 c!"message M {}" [], parse 20 c!";" [], parse 20 c!"message M {}\n;" [] with
    | .ok p, .ok p', .ok p'' => decide ((bareAll p''.protoBody).length ≠ (bareAll p.protoBody ++ bareAll p'.protoBody).length)
    | _, _, _ => false) = true := by decide +kernel
  split at key
  · rename_i p p' p'' h1 h2 h3
    refine ⟨_, _, p, p', p'', h1, h2, h3, fun e => ?_⟩
    exact of_decide_eq_true key (congrArg (fun p : Proto => p.protoBody.length) e)
  · cases key

end Verif.Props
