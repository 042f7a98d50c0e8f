import Verif.Proofs.PrintNodes
import Verif.Props.WellFormed

/-!
# C67: a tree can be printed and read back
-/

set_option backward.isDefEq.respectTransparency false
set_option backward.dsimp.instances true

namespace Verif.Props
open Verif Spec

/-! ## What is printed depends on the core of a tree only -/

mutual
theorem print_bare : ∀ v, print (bare v) = print v
  | .nil => by simp [bare]
  | .comment _ => by simp [bare, print]
  | .importStmt _ => by simp [bare, print, printImport, bareImport]
  | .package _ => by simp [bare, print, printPackage, barePackage]
  | .option _ => by simp [bare, print, printOption, bareOption]
  | .message ⟨_, body, _, _, _, _⟩ => by simp [bare, print, printAll_bareAll body]
  | .enum ⟨_, body, _, _, _, _⟩ => by simp [bare, print, printAll_bareAll body]
  | .service ⟨_, body, _, _, _, _⟩ => by simp [bare, print, printAll_bareAll body]
  | .extend ⟨_, body, _, _, _, _⟩ => by simp [bare, print, printAll_bareAll body]
  | .emptyStatement _ => by simp [bare, print]
  | .field _ => by simp [bare, print, printField, bareField]
  | .enumField _ => by simp [bare, print, printEnumField, bareEnumField]
  | .oneof _ => by simp only [bare, print, printOneof, bareOneof, List.flatMap_map]; rfl
  | .mapField _ => by simp [bare, print, printMapField, bareMapField]
  | .groupField ⟨_, _, _, _, body, _, _, _, _, _⟩ => by simp [bare, print, printAll_bareAll body]
  | .reserved _ => by simp [bare, print, printReserved, bareReserved]
  | .extensions x => by
    have : (printDeclarations (x.declarations.map bareDeclaration)) = printDeclarations x.declarations := by
      have h : printDeclaration ∘ bareDeclaration = printDeclaration := rfl
      cases x.declarations with
      | nil => rfl
      | cons y ys => simp only [printDeclarations, List.map_cons, List.map_map, h]; rfl
    simp [bare, print, printExtensions, bareExtensions, this]
  | .rpc x => by
    have : printRPCEnd (x.options.map bareOption) = printRPCEnd x.options := by
      cases x.options with
      | nil => rfl
      | cons y ys => simp only [printRPCEnd, List.map_cons, List.flatMap_cons, List.flatMap_map]; rfl
    simp [bare, print, printRPC, bareRPC, printRPCMessage, bareRPCMessage, this]

theorem printAll_bareAll : ∀ vs, printAll (bareAll vs) = printAll vs
  | [] => by simp [bareAll]
  | v :: vs => by
    have h1 := print_bare v
    have h2 := printAll_bareAll vs
    cases v <;> simp [bareAll, printAll, h1, h2] <;> simp [print]
end

mutual
theorem print_core : ∀ v, print (core v) = print v
  | .nil => by simp [core]
  | .comment _ => by simp [core, print]
  | .importStmt x => by simpa [bare, core] using print_bare (.importStmt x)
  | .package x => by simpa [bare, core] using print_bare (.package x)
  | .option x => by simpa [bare, core] using print_bare (.option x)
  | .message ⟨_, body, _, _, _, _⟩ => by simp [core, print, printAll_coreAll body]
  | .enum ⟨_, body, _, _, _, _⟩ => by simp [core, print, printAll_coreAll body]
  | .service ⟨_, body, _, _, _, _⟩ => by simp [core, print, printAll_coreAll body]
  | .extend ⟨_, body, _, _, _, _⟩ => by simp [core, print, printAll_coreAll body]
  | .emptyStatement _ => by simp [core, print]
  | .field x => by simpa [bare, core] using print_bare (.field x)
  | .enumField x => by simpa [bare, core] using print_bare (.enumField x)
  | .oneof x => by simpa [bare, core] using print_bare (.oneof x)
  | .mapField x => by simpa [bare, core] using print_bare (.mapField x)
  | .groupField ⟨_, _, _, _, body, _, _, _, _, _⟩ => by simp [core, print, printAll_coreAll body]
  | .reserved x => by simpa [bare, core] using print_bare (.reserved x)
  | .extensions x => by simpa [bare, core] using print_bare (.extensions x)
  | .rpc x => by simpa [bare, core] using print_bare (.rpc x)

theorem printAll_coreAll : ∀ vs, printAll (coreAll vs) = printAll vs
  | [] => by simp [coreAll]
  | v :: vs => by
    have h1 := print_core v
    have h2 := printAll_coreAll vs
    cases v <;> simp [coreAll, printAll, h1, h2] <;> simp [print]
end

theorem printAll_append (vs vs' : List Visitee) : printAll (vs ++ vs') = printAll vs ++ printAll vs' := by
  induction vs with
  | nil => simp [printAll]
  | cons v vs ih => simp [printAll, ih]

theorem printAll_withNils (vs : List Visitee) : printAll (withNils vs) = printAll vs := by
  induction vs with
  | nil => rfl
  | cons v vs ih =>
    unfold withNils at ih ⊢
    rw [List.flatMap_cons, printAll_append, ih]
    cases v <;> simp [printAll, print]

mutual
theorem core_bare : ∀ v, core (bare v) = core v
  | .nil => by simp [bare]
  | .comment _ => by simp [bare, core]
  | .importStmt _ => by simp [bare, core, bareImport]
  | .package _ => by simp [bare, core, barePackage]
  | .option _ => by simp [bare, core, bareOption]
  | .message ⟨_, body, _, _, _, _⟩ => by simp [bare, core, coreAll_bareAll body]
  | .enum ⟨_, body, _, _, _, _⟩ => by simp [bare, core, coreAll_bareAll body]
  | .service ⟨_, body, _, _, _, _⟩ => by simp [bare, core, coreAll_bareAll body]
  | .extend ⟨_, body, _, _, _, _⟩ => by simp [bare, core, coreAll_bareAll body]
  | .emptyStatement _ => by simp [bare, core]
  | .field _ => by simp [bare, core, bareField]
  | .enumField _ => by simp [bare, core, bareEnumField]
  | .oneof _ => by simp [bare, core, bareOneof, bareOption, bareOneofField]
  | .mapField _ => by simp [bare, core, bareMapField]
  | .groupField ⟨_, _, _, _, body, _, _, _, _, _⟩ => by simp [bare, core, coreAll_bareAll body]
  | .reserved _ => by simp [bare, core, bareReserved]
  | .extensions x => by simp [bare, core, bareExtensions, bareDeclaration]
  | .rpc x => by simp [bare, core, bareRPC, bareRPCMessage, bareOption]

theorem coreAll_bareAll : ∀ vs, coreAll (bareAll vs) = coreAll vs
  | [] => by simp [bareAll]
  | v :: vs => by
    have h1 := core_bare v
    have h2 := coreAll_bareAll vs
    cases v <;> simp [bareAll, coreAll, bare, h2] <;> simpa [bare] using h1
end

theorem coreAll_withNils (vs : List Visitee) : coreAll (withNils vs) = coreAll vs := by
  induction vs with
  | nil => rfl
  | cons v vs ih =>
    unfold withNils at ih ⊢
    rw [List.flatMap_cons]
    cases v <;> simp [coreAll, ih]

mutual
theorem bare_core : ∀ v, bare (core v) = core v
  | .nil => by simp [bare, core]
  | .comment _ => by simp [bare, core]
  | .importStmt _ => by simp [bare, core, bareImport]
  | .package _ => by simp [bare, core, barePackage]
  | .option _ => by simp [bare, core, bareOption]
  | .message ⟨_, body, _, _, _, _⟩ => by simp [bare, core, bareAll_coreAll body]
  | .enum ⟨_, body, _, _, _, _⟩ => by simp [bare, core, bareAll_coreAll body]
  | .service ⟨_, body, _, _, _, _⟩ => by simp [bare, core, bareAll_coreAll body]
  | .extend ⟨_, body, _, _, _, _⟩ => by simp [bare, core, bareAll_coreAll body]
  | .emptyStatement _ => by simp [bare, core]
  | .field _ => by simp [bare, core, bareField]
  | .enumField _ => by simp [bare, core, bareEnumField]
  | .oneof _ => by simp [bare, core, bareOneof, bareOption, bareOneofField]
  | .mapField _ => by simp [bare, core, bareMapField]
  | .groupField ⟨_, _, _, _, body, _, _, _, _, _⟩ => by simp [bare, core, bareAll_coreAll body]
  | .reserved _ => by simp [bare, core, bareReserved]
  | .extensions x => by simp [bare, core, bareExtensions, bareDeclaration]
  | .rpc x => by simp [bare, core, bareRPC, bareRPCMessage, bareOption]

theorem bareAll_coreAll : ∀ vs, bareAll (coreAll vs) = coreAll vs
  | [] => by simp [bareAll, coreAll]
  | v :: vs => by
    have h1 := bare_core v
    have h2 := bareAll_coreAll vs
    cases v <;> simp [bareAll, coreAll, core, h2] <;> simpa [core] using h1
end

theorem withNils_coreAll (vs : List Visitee) : withNils (coreAll vs) = coreAll vs := by
  induction vs with
  | nil => simp [coreAll, withNils]
  | cons v vs ih =>
    unfold withNils at ih ⊢
    cases v <;> simp [coreAll, core, ih]

theorem nil_not_core (vs : List Visitee) : .nil ∉ coreAll vs := by
  induction vs with
  | nil => simp [coreAll]
  | cons v vs ih => cases v <;> simp [coreAll, core, ih]

theorem fileTree_core (p : Proto) : fileTree (coreProto p) = coreProto p := by
  unfold fileTree bareProto coreProto
  simp only [bareAll_coreAll, withNils_coreAll, Option.map_map]
  rfl

theorem print_alike {p q : Proto} (h : bareProto p = fileTree q) : printProto p = printProto q ∧ coreProto p = coreProto q := by
  have h1 : p.syntax_.map bareSyntax = q.syntax_.map bareSyntax := congrArg Proto.syntax_ h
  have h2 : p.edition.map bareEdition = q.edition.map bareEdition := congrArg Proto.edition h
  have h3 : bareAll p.protoBody = withNils (bareAll q.protoBody) := congrArg Proto.protoBody h
  constructor
  · have k1 : p.syntax_.toList.flatMap printSyntax = q.syntax_.toList.flatMap printSyntax := by
      have : ∀ o : Option Syntax, o.toList.flatMap printSyntax = (o.map bareSyntax).toList.flatMap printSyntax := by
        intro o; cases o <;> rfl
      rw [this, h1, ← this]
    have k2 : p.edition.toList.flatMap printEdition = q.edition.toList.flatMap printEdition := by
      have : ∀ o : Option Edition, o.toList.flatMap printEdition = (o.map bareEdition).toList.flatMap printEdition := by
        intro o; cases o <;> rfl
      rw [this, h2, ← this]
    have k3 : printAll p.protoBody = printAll q.protoBody := by
      rw [← printAll_bareAll, h3, printAll_withNils, printAll_bareAll]
    unfold printProto
    rw [k1, k2, k3]
  · unfold coreProto
    rw [h1, h2, ← coreAll_bareAll p.protoBody, h3, coreAll_withNils, coreAll_bareAll]

/-! ## The round trip -/

/-- The printed text of a tree that a token list of the grammar stands for is read as the same tree. -/
theorem print_complete {options : List ParseOpt} {G : Gram} (hG : G.strict = grammarOf options) {q : Proto} {ts : List Tok}
    (hq : ProtoToks G q ts) (ht : Tame G (words ts)) :
    ∃ p', Parses (printProto q) options (.ok p') ∧ bareProto p' = coreProto q := by
  cases hq with
  | mk bom ss es bs hbom hss hes hbs =>
    have hss' : ∃ ws, Prints (q.syntax_.toList.flatMap printSyntax) ws ∧
        Optional SyntaxToks (q.syntax_.map bareSyntax) (ws.map tokOf) := by
      generalize q.syntax_ = o at hss
      cases hss with
      | none => exact ⟨[], .nil, .none⟩
      | some a ts h =>
        obtain ⟨ws, h1, h2⟩ := syntax_print h
        exact ⟨ws, by simpa using h1, .some _ _ h2⟩
    simp only [words_append] at ht
    have hes' : ∃ ws, Prints (q.edition.toList.flatMap printEdition) ws ∧
        Optional EditionToks (q.edition.map bareEdition) (ws.map tokOf) := by
      have ht' := ht.left.right
      generalize q.edition = o at hes
      cases hes with
      | none => exact ⟨[], .nil, .none⟩
      | some a ts h =>
        obtain ⟨ws, h1, h2⟩ := edition_print h ht'
        exact ⟨ws, by simpa using h1, .some _ _ h2⟩
    obtain ⟨ws1, a1, b1⟩ := hss'
    obtain ⟨ws2, a2, b2⟩ := hes'
    obtain ⟨ws3, a3, b3, _⟩ := body_print hbs ht.right
    rw [hG] at b3
    have hsp : Spread (ws1 ++ ws2 ++ ws3) (printProto q) := ((a1.append a2).append a3).spread
    have hq' : ProtoToks (grammarOf options) (coreProto q) ((ws1 ++ ws2 ++ ws3).map tokOf) := by
      have := ProtoToks.mk (coreProto q) [] _ _ _ (.inl rfl) b1 b2 b3
      simpa using this
    obtain ⟨p', h1, h2⟩ := parse_complete_partial hsp.nulFree hq' (nil_not_core _) (by rw [words_tokOf]; exact hsp.laid)
      (by
        rintro ⟨us, c, _, h2, h3⟩
        rw [words_tokOf] at h2
        exact hsp.untrailed h2 h3) (Nat.lt_succ_self _)
    rw [fileTree_core] at h2
    exact ⟨p', ⟨nofun, _, h1⟩, h2⟩

theorem laid_words {ws : List Str} {t : Str} (h : Laid ws t) :
    ∀ w ∈ ws, (FloatLit w → ¬ LeadingZero w) ∧ ∀ c ∈ w, c ∈ t := by
  induction h with
  | nil => simp
  | cons g cs w ws c _ ha _ ih =>
    intro v hv
    rcases List.mem_cons.1 hv with rfl | hv
    · exact ⟨ha.zero, fun c hc => by simp [hc]⟩
    · exact ⟨(ih v hv).1, fun d hd => by simp [(ih v hv).2 d hd]⟩

theorem layout_words {f b a t : Str} {ts : List Tok} (h : Layout f b a ts t) :
    ∀ w ∈ words ts, (FloatLit w → ¬ LeadingZero w) ∧ w <:+: t := by
  induction h with
  | nil => simp [words]
  | cons g cs w ts c _ _ _ hx _ ih =>
    intro v hv
    rcases List.mem_cons.1 hv with rfl | hv
    · exact ⟨hx.2, g, c, by simp⟩
    · exact ⟨(ih v hv).1, (ih v hv).2.trans ⟨g ++ w, [], by simp⟩⟩

/-- C67: an accepted file is a layout of tokens that its tree stands for, and if the string literals among
them can be merged (no matter in strict mode), the tree can be printed from its strings and flags alone:
reading that text gives the same tree again, up to positions, comments and empty statements.  Without
the condition on the literals it is false (`print_violation`).  The tokens are not known after a failed
group was recovered (C28). -/
theorem print_accepted_partial {input : Str} (hn : NulFree input) {options : List ParseOpt} {p : Proto}
    (h : Parses input options (.ok p)) (hc : Settled options input p) :
    ∃ ts, ProtoToks (gramOf options) p ts ∧ Layout (fileOf options) [] [] ts input ∧
      (((configOf options).permissive = true → Mergeable (words ts)) →
        ∃ p', Parses (printProto p) options (.ok p') ∧ bareProto p' = coreProto p) := by
  obtain ⟨_, fuel, h⟩ := h
  obtain ⟨ts, h1, h2⟩ := parse_layout_partial hn h hc
  refine ⟨ts, h1, h2, fun hm => ?_⟩
  have := layout_words h2
  exact print_complete (G := gramOf options) rfl h1
    ⟨hm, fun w hw => (this w hw).1, fun w hw c hc => hn c ((this w hw).2.subset hc)⟩

theorem looseValues_last {q : Char} {b : Str} (h : LooseValues q b) (hl : b.getLast? = some q) :
    ∃ b', b = b' ++ ['\\', q] := by
  induction h with
  | nil => cases hl
  | plain c w h1 _ _ _ ih =>
    cases w with
    | nil => exact absurd (by simpa using hl) h1
    | cons d w =>
      obtain ⟨b', e⟩ := ih (by simpa using hl)
      exact ⟨c :: b', by rw [e]; rfl⟩
  | escape c w _ _ ih =>
    cases w with
    | nil =>
      obtain rfl : c = q := by simpa using hl
      exact ⟨[], rfl⟩
    | cons d w =>
      obtain ⟨b', e⟩ := ih (by simpa using hl)
      exact ⟨'\\' :: c :: b', by rw [e]; rfl⟩
  | stray w _ hne _ ih =>
    cases w with
    | nil => exact absurd rfl hne
    | cons d w =>
      obtain ⟨b', e⟩ := ih (by simpa using hl)
      exact ⟨'\\' :: b', by rw [e]; rfl⟩

/-- The string literals of a text with one kind of quotes, in which no literal ends with an escaped quote, can
be merged. -/
theorem mergeable_text {t : Str} {ws : List Str} (hw : ∀ w ∈ ws, w <:+: t) {q : Char}
    (hq : ∀ c ∈ t, c = '\'' ∨ c = '"' → c = q) (he : ¬ ['\\', q, q] <:+: t) : Mergeable ws := by
  have key : ∀ w ∈ ws, ∀ {q' b}, (q' = '\'' ∨ q' = '"') → w = q' :: b ++ [q'] → q' = q := by
    intro w h q' b h1 e
    exact hq q' ((hw w h).subset (by simp [e])) h1
  constructor
  · rintro w h ⟨q1, b1, h1, h2, e1⟩ q2 b2 e2 hl
    obtain rfl := key w h h1 e1
    have e3 := e1.symm.trans e2
    obtain ⟨rfl, e3⟩ := List.cons.inj e3
    obtain rfl := List.append_cancel_right e3
    obtain ⟨b', rfl⟩ := looseValues_last h2 hl
    exact he (.trans ⟨q1 :: b', [], by simp [e1]⟩ (hw w h))
  · rintro v w h ⟨q1, b1, h1, _, e1⟩ ⟨q2, b2, h2, _, e2⟩
    obtain rfl := key v (h.subset (by simp)) h1 e1
    obtain rfl := key w (h.subset (by simp)) h2 e2
    rw [e1, e2]
    rfl

/-- C67 with a condition on the text: in permissive mode it has one kind of quotes, and none of its literals ends
with an escaped quote. -/
theorem print_text_partial {input : Str} (hn : NulFree input) {options : List ParseOpt} {p : Proto}
    (h : Parses input options (.ok p)) (hc : Settled options input p)
    (hm : (configOf options).permissive = true →
      ∃ q, (∀ c ∈ input, c = '\'' ∨ c = '"' → c = q) ∧ ¬ ['\\', q, q] <:+: input) :
    ∃ p', Parses (printProto p) options (.ok p') ∧ bareProto p' = coreProto p := by
  obtain ⟨ts, _, h2, h3⟩ := print_accepted_partial hn h hc
  refine h3 (fun hp => ?_)
  obtain ⟨q, h4, h5⟩ := hm hp
  exact mergeable_text (fun w hw => (layout_words h2 w hw).2) h4 h5

/-- C67: the tree of a well-formed file can be printed from its strings and flags alone, and reading the text
gives the same tree again, up to positions, comments and empty statements.  In permissive mode the string
literals must be ones that merging leaves intact: otherwise it is false (`print_violation`). -/
theorem print_read_partial {input : Str} (hn : NulFree input) {options : List ParseOpt} {q : Proto} {ts : List Tok}
    (hq : ProtoToks (grammarOf options) q ts) (hs : .nil ∉ q.protoBody) (hl : Laid (words ts) input)
    (hc : ¬ CommentBehindSemi (grammarOf options) ts input)
    (hm : (configOf options).permissive = true → Mergeable (words ts)) :
    ∃ p p', Parses input options (.ok p) ∧ Parses (printProto p) options (.ok p') ∧ bareProto p' = coreProto p := by
  obtain ⟨p, h1, h2⟩ := parse_complete_partial hn hq hs hl hc (Nat.lt_succ_self _)
  obtain ⟨p', h3, h4⟩ := print_complete (G := grammarOf options) rfl hq
    ⟨hm, fun w hw => (laid_words hl w hw).1, fun w hw c hc => hn c ((laid_words hl w hw).2 c hc)⟩
  obtain ⟨h5, h6⟩ := print_alike h2
  exact ⟨p, p', ⟨nofun, _, h1⟩, by rw [h5]; exact h3, by rw [h6]; exact h4⟩

/-- Printing is stable: the text of the tree that was read back is the same text. -/
theorem print_stable {p p' : Proto} (h : bareProto p' = coreProto p) : printProto p' = printProto p := by
  have h1 := (print_alike (p := p') (q := coreProto p) (by rw [fileTree_core]; exact h)).1
  rw [h1]
  unfold printProto coreProto
  simp only [printAll_coreAll]
  cases p.syntax_ <;> cases p.edition <;> rfl

/-! ## The theorem applies -/

/-- `option a = "x" "y" ; message M { ; }`, where the two literals are one constant. -/
def joinFile : Proto :=
  { syntax_ := none, edition := none
    protoBody := [.option { optionName := c!"a", constant := c!"\"xy\"", info := {} },
      .message { messageName := c!"M", messageBody := [.emptyStatement {}], info := {} }]
    metaFilename := [] }

def joinWords : List Str :=
  [c!"option", c!"a", c!"=", c!"\"x\"", c!"\"y\"", c!";", c!"message", c!"M", c!"{", c!";", c!"}"]

theorem lit_x (c : Char) (h : c ≠ '"' ∧ c ≠ '\n' ∧ c ≠ '\\') : StrLit ['"', c, '"'] :=
  ⟨'"', [c], .inr rfl, .plain c [] h.1 h.2.1 h.2.2 .nil, rfl⟩

theorem join_file : ProtoToks ⟨true, false, false⟩ joinFile (joinWords.map tokOf) := by
  have hO : Toks ⟨true, false, false⟩ .file (.option { optionName := c!"a", constant := c!"\"xy\"", info := {} })
      ([c!"option", c!"a", c!"=", c!"\"x\"", c!"\"y\"", c!";"].map tokOf) := by
    refine .option .file _ _ (by decide) ⟨[c!"a"], [c!"\"x\"", c!"\"y\""], .one _ _ (.ident _ (isWord_word (by decide +kernel))), ?_,
      written (by simp)⟩
    have := Constant.strs (G := ⟨true, false, false⟩) [c!"\"x\"", c!"\"y\""] rfl (by simp) (by
      simp only [List.mem_cons, List.not_mem_nil, or_false, forall_eq_or_imp, forall_eq]
      exact ⟨lit_x 'x' (by decide), lit_x 'y' (by decide)⟩)
    have e : joinStrings [c!"\"x\"", c!"\"y\""] = c!"\"xy\"" := by decide +kernel
    rw [e] at this
    exact this
  have hM := Toks.message (G := ⟨true, false, false⟩) .file
      { messageName := c!"M", messageBody := [.emptyStatement {}], info := {} }
      ([c!"message", c!"M", c!"{"].map tokOf) ([c!";"].map tokOf) ([c!"}"].map tokOf) (.inl rfl) rfl
      (isWord_word (by decide +kernel))
      (.cons .message _ _ _ _ (.empty .message {} (tokOf c!";") rfl) (.nil _) (fun _ _ => by unfold Tight; decide)) (.inl rfl)
      (spans_tokOf (ws := [c!"message", c!"M", c!"{", c!";", c!"}"]) (by simp))
  exact ProtoToks.mk joinFile [] [] [] _ (.inl rfl) .none .none
    (.cons .file _ _ _ _ hO (.cons .file _ _ _ _ hM (.nil _) (fun _ _ => by unfold Tight; decide))
      (fun _ _ => by unfold Tight; decide))

theorem strLit_quotes {w : Str} (h : StrLit w) : w.head? = some '"' ∨ w.head? = some '\'' := by
  obtain ⟨q, b, hq, _, rfl⟩ := h
  rcases hq with rfl | rfl
  · exact .inr rfl
  · exact .inl rfl

theorem join_mergeable : Mergeable joinWords := by
  have hq : ∀ w ∈ joinWords, StrLit w → w = c!"\"x\"" ∨ w = c!"\"y\"" := by
    intro w hw h
    have : ∀ w ∈ joinWords, (w.head? = some '"' ∨ w.head? = some '\'') → w = c!"\"x\"" ∨ w = c!"\"y\"" := by decide +kernel
    exact this w hw (strLit_quotes h)
  refine ⟨fun w hw h q b e => ?_, fun v w hvw hv hw => ?_⟩
  · rcases hq w hw h with rfl | rfl
    · obtain ⟨rfl, e⟩ := List.cons.inj e
      obtain rfl : b = c!"x" := (List.append_cancel_right (as := c!"x") (bs := ['"']) e).symm
      decide
    · obtain ⟨rfl, e⟩ := List.cons.inj e
      obtain rfl : b = c!"y" := (List.append_cancel_right (as := c!"y") (bs := ['"']) e).symm
      decide
  · rcases hq v (hvw.subset (by simp)) hv with rfl | rfl <;>
      rcases hq w (hvw.subset (by simp)) hw with rfl | rfl <;> rfl

/-- The round trip of that file: the constant is `"xy"` in both trees, the empty statement is in the first
only. -/
example : ∃ p p', Parses (spaced joinWords) [] (.ok p) ∧ Parses (printProto p) [] (.ok p') ∧
    bareProto p' = coreProto p ∧ printProto p = c!" option a = \"xy\" ; message M { }\n" := by
  have key : ∀ w ∈ joinWords, ((w.headD '/').toNat ∉ whiteSpace ∧ w.headD '/' ≠ '/' ∧ w.headD '/' ≠ '0') ∧
    ∀ c ∈ w, c ≠ eof := by decide +kernel
  have hst : ∀ w ∈ joinWords, Standing w := fun w hw => standing_of (key w hw).1
  have hl : Laid (words (joinWords.map tokOf)) (spaced joinWords) := by
    rw [words_tokOf]
    exact laid_spaced hst
  have hn : NulFree (spaced joinWords) := by
    unfold NulFree
    decide +kernel
  obtain ⟨p, p', h1, h2, h3⟩ := print_read_partial (options := []) hn join_file (by simp [joinFile]) hl (by
      rintro ⟨us, c, _, h2, h3⟩
      rw [words_tokOf] at h2
      exact spaced_untrailed hst h2 h3) (fun _ => by rw [words_tokOf]; exact join_mergeable)
  refine ⟨p, p', h1, h2, h3, ?_⟩
  have he : accepts (fun p => decide (printProto p = c!" option a = \"xy\" ; message M { }\n"))
      (parse 60 (spaced joinWords)) = true := by decide +kernel
  obtain ⟨p2, k1, k2⟩ := accepts_parses he
  obtain rfl := Outcome.ok.inj (parses_unique h1 k1)
  exact of_decide_eq_true k2

/-- A text with what the code accepts beyond the grammar: a word before the location, a number before the
reserved name, a list without right square. -/
def looseText : Str := c!"import x \"a\"; // y\nmessage M { reserved 1, \"b\";; option c = [ 2 ; ; }"

/-- What is accepted beyond the grammar is not in the tree, and not printed. -/
example : ∃ p p', Parses looseText [] (.ok p) ∧ Parses (printProto p) [] (.ok p') ∧ bareProto p' = coreProto p ∧
    printProto p = c!" import \"a\" ; message M { reserved \"b\" ; option c = [2] ; }\n" := by
  have he : accepts (fun p => decide (printProto p =
      c!" import \"a\" ; message M { reserved \"b\" ; option c = [2] ; }\n")) (parse 200 looseText) = true := by
    decide +kernel
  obtain ⟨p, h1, h2⟩ := accepts_parses he
  obtain ⟨p', h3, h4⟩ := print_text_partial (by unfold NulFree; decide +kernel) h1
    (.inl (by unfold NoGroup; decide +kernel))
    (fun _ => ⟨'"', by decide +kernel, by decide +kernel⟩)
  exact ⟨p, p', h1, h3, h4, of_decide_eq_true h2⟩

/-- C67 is violated in permissive mode by a literal that ends with an escaped quote: the quote is dropped from
the constant, and the printed text is not accepted. -/
theorem print_violation :
    ∃ p e, Parses c!"option a = \"\\\"\";" [] (.ok p) ∧ Parses (printProto p) [] (.error e) := by
  have h : accepts (fun p => decide (printProto p = c!" option a = \"\\\" ;\n")) (parse 60 c!"option a = \"\\\"\";") = true := by
    decide +kernel
  obtain ⟨p, h1, h2⟩ := accepts_parses h
  have h3 : (match parse 60 c!" option a = \"\\\" ;\n" with
      | .error _ => true
      | _ => false) = true := by decide +kernel
  split at h3
  · next e he => exact ⟨p, e, h1, by rw [of_decide_eq_true h2]; exact ⟨nofun, 60, he⟩⟩
  · cases h3

end Verif.Props
