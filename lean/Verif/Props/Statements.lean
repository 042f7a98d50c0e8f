import Verif.Props.Parse
import Verif.Proofs.GramMono

/-!
# What single reading functions accept (C16-C18, C30, C43, C44, C48)

The theorems are about a call in the middle of a file: `At f pre l` says that the lexer `l` has read
the part `pre` of the file `f`, and `l.scanner.inp` is the rest.
-/

set_option backward.isDefEq.respectTransparency false
set_option backward.dsimp.instances true

namespace Verif.Props
open Scanner Spec Lexer

/-- The lexer has read the text `pre` of the file `f`; there is no NUL in what it read last and in
what is left. -/
structure At (f pre : Str) (l : Lexer) : Prop where
  good : Good l
  pos : l.scanner.pos = (SPos.new f).advanceAll pre

theorem at_new {input f : Str} (h : NulFree input) : At f [] (Lexer.new input f) := ⟨good_new h, rfl⟩

/-- The text between two states is a layout of the tokens, and the second state is where it ends. -/
def Consumed (f pre : Str) (l : Lexer) (ts : List Tok) (l' : Lexer) : Prop :=
  ∃ c, l.scanner.inp = c ++ l'.scanner.inp ∧ Layout f pre l'.scanner.inp ts c ∧ At f (pre ++ c) l'

theorem took_consumed {f pre : Str} {l l' : Lexer} {ts : List Tok} (ha : At f pre l) (h : Took l ts l') :
    Consumed f pre l ts l' := by
  obtain ⟨hg, ⟨c, h1, h2, h3, _⟩, _⟩ := h
  rw [ha.pos] at h2 h3
  exact ⟨c, h1, lay_text h3, hg, by rw [h2, SPos.advanceAll_append]⟩

theorem ok_of {α : Type} {Q : α → Lexer → Prop} {E : Err → Lexer → Prop} {m : P α} {l l' : Lexer} {a : α}
    (h : Sat (fun _ => True) Q E (m l)) (hr : m l = .ok a l') : Q a l' := by
  rw [hr] at h; exact h

/-- The value that a run returns. -/
def resultOf {α : Type} : Res Lexer Err α → Option α
  | .ok a _ => some a
  | _ => none

/-! ## C30: comments -/

theorem mkComment_source {f pre : Str} {text : Str} (h : text ≠ []) :
    Parser.mkComment text ((SPos.new f).advanceAll pre) = sourceComment f pre text := by
  unfold Parser.mkComment sourceComment SPos.advancedBulk
  have e : text = text.dropLast ++ [text.getLast h] := (List.dropLast_concat_getLast h).symm
  have e1 : text.getLastD (Char.ofNat 0xFFFD) = text.getLast h := by
    rw [List.getLastD_eq_getLast?, List.getLast?_eq_some_getLast h]; rfl
  have e2 : ((SPos.new f).advanceAll pre).advanceAll text =
      (((SPos.new f).advanceAll pre).advanceAll text.dropLast).advance (text.getLast h) := by
    conv => lhs; rw [e]
    rw [SPos.advanceAll_append]
    rfl
  rw [e1, e2, SPos.revert_advance, SPos.advanceAll_new, ← SPos.advanceAll_append, SPos.advanceAll_new]

theorem comment_text_ne {rest raw text : Str} (h : Spec.Comment rest raw text) : text ≠ [] := by
  cases h <;> simp

theorem gap_texts {com : Bool} {rest g : Str} {gs : List (Str × Str)} (h : Gap com rest g gs) :
    ∀ q ∈ gs, q.2 ≠ [] := by
  induction h with
  | nil => simp
  | space c g cs hc _ ih =>
    intro q hq
    simp only [List.mem_map] at hq
    obtain ⟨q', h1, rfl⟩ := hq
    exact ih q' h1
  | comment raw text g cs _ hc _ ih =>
    intro q hq
    simp only [List.mem_cons, List.mem_map] at hq
    rcases hq with rfl | ⟨q', h1, rfl⟩
    · cases hc <;> simp
    · exact ih q' h1

theorem read_comments {f pre : Str} {l l' : Lexer} {cs : List Verif.Comment} (ha : At f pre l)
    (hg : Good l') (h : Parser.CommentsRead l cs l') :
    ∃ g gs, l.scanner.inp = g ++ l'.scanner.inp ∧ Gap true l'.scanner.inp g gs ∧
      cs = gs.map (fun q => sourceComment f (pre ++ q.1) q.2) ∧ At f (pre ++ g) l' := by
  obtain ⟨g, gs, h1, h2, h3, h4, _⟩ := h
  refine ⟨g, gs, h1, h3, ?_, hg, by rw [h2, ha.pos, ← SPos.advanceAll_append]⟩
  rw [h4]
  refine List.map_congr_left (fun q hq => ?_)
  rw [ha.pos, ← SPos.advanceAll_append]
  exact mkComment_source (gap_texts h3 q hq)

/-- C30: `ParseComments` returns all the comments before the next token, each with its source text,
the position of its first and that of its last rune. -/
theorem comments_exact {f pre : Str} {l l' : Lexer} {cs : List Verif.Comment} (ha : At f pre l)
    (h : Parser.parseComments l = .ok cs l') :
    ∃ g gs, l.scanner.inp = g ++ l'.scanner.inp ∧ Gap true l'.scanner.inp g gs ∧
      cs = gs.map (fun q => sourceComment f (pre ++ q.1) q.2) ∧ At f (pre ++ g) l' ∧
      ∀ w raw text rest, l'.scanner.inp = w ++ (raw ++ rest) → Gap false (raw ++ rest) w [] →
        ¬ Spec.Comment rest raw text := by
  obtain ⟨h1, h2, _, h3⟩ := ok_of (E := fun _ _ => True) (Parser.parseComments_sat ha.good) h
  obtain ⟨g, gs, e1, e2, e3, e4⟩ := read_comments ha h2 h1
  refine ⟨g, gs, e1, e2, e3, e4, ?_⟩
  intro w raw text rest hi hw hc
  apply h3
  obtain ⟨y, hy, hp⟩ := commentPiece_complete hc
  have hl : lex .commentMode (raw ++ rest) =
      { coms := [([], text)], body := raw, token := .comment, text := text } := by
    have e : raw ++ rest = '/' :: (y ++ rest) := by rw [hy]; rfl
    rw [e] at hp ⊢
    rw [lex_comment_tok (by rw [hp]) rfl, hp]
  have := lex_gap (m := .commentMode) (g := w) (rest := raw ++ rest) (cs := []) hw
  simp only [nextSt]
  rw [hi, this, hl]

/-- C30: a comment that `parseInlineComment` returns stands before the next token and on the line of
the token read before it. -/
theorem inline_exact {f pre : Str} {l l' : Lexer} {c : Verif.Comment} (ha : At f pre l)
    (h : Parser.parseInlineComment l = .ok (some c) l') :
    ∃ w raw text, l.scanner.inp = w ++ (raw ++ l'.scanner.inp) ∧
      Gap true (raw ++ l'.scanner.inp) w [] ∧ Spec.Comment l'.scanner.inp raw text ∧
      c = sourceComment f (pre ++ w) text ∧ l.pos.p.line = line (pre ++ w) ∧
      At f (pre ++ (w ++ raw)) l' := by
  have hr := Parser.parseComment_eq ha.good
  by_cases ht : (nextSt .commentMode l).token = .comment
  · rw [if_pos ht] at hr
    have h0 : Parser.parseInlineComment l = if l.pos.p.line ≠ (nextSt .commentMode l).pos.p.line then
        .ok none (putBack .commentMode l)
      else .ok (some (Parser.mkComment (nextSt .commentMode l).text (nextSt .commentMode l).pos))
        (nextSt .commentMode l) := by
      unfold Parser.parseInlineComment
      show M.bind position _ l = _
      unfold M.bind
      show M.bind (M.attempt Parser.parseComment) _ l = _
      unfold M.bind M.attempt
      rw [hr]
      show (ite _ _ _ : P _) _ = _
      by_cases hl : l.pos.p.line ≠ (nextSt .commentMode l).pos.p.line
      · rw [if_pos (by exact hl), if_pos hl]
        exact (M.bind_ok (unNext_nextSt _ _)).trans rfl
      · rw [if_neg (by exact hl), if_neg hl]; rfl
    rw [h0] at h
    split at h
    · simp at h
    · rename_i hl
      simp only [Res.ok.injEq, Option.some.injEq] at h
      obtain ⟨rfl, rfl⟩ := h
      obtain ⟨_, w, raw, cs, e1, e2, e3, e4⟩ := nextComment_took ha.good ht
      obtain ⟨rfl, e5⟩ := Parser.gap_false_true e2
      have e6 : (nextSt .commentMode l).pos = (SPos.new f).advanceAll (pre ++ w) := by
        rw [e4, ha.pos, SPos.advanceAll_append]
      refine ⟨w, raw, _, e1, e5, e3, ?_, ?_, good_next ha.good _, ?_⟩
      · rw [e6]; exact mkComment_source (comment_text_ne e3)
      · rw [Decidable.not_not.1 hl, e6, SPos.advanceAll_new]; rfl
      · obtain ⟨_, ⟨c, a1, a2, _⟩, _⟩ := (nextComment_took ha.good ht).1
        have hc : c = w ++ raw := by
          have h3' : l.scanner.inp = (w ++ raw) ++ (nextSt .commentMode l).scanner.inp := by rw [e1]; simp
          exact List.append_cancel_right (a1.symm.trans h3')
        rw [a2, hc, ha.pos, ← SPos.advanceAll_append]
  · rw [if_neg ht] at hr
    have h0 : Parser.parseInlineComment l = .ok none (putBack .commentMode l) := by
      unfold Parser.parseInlineComment
      show M.bind position _ l = _
      unfold M.bind
      show M.bind (M.attempt Parser.parseComment) _ l = _
      unfold M.bind M.attempt
      rw [hr]
      rfl
    rw [h0] at h
    simp at h

example : resultOf (Parser.parseComments (Lexer.new c!" /* a\n*/ // b\n x // c" c!"f")) =
    some [sourceComment c!"f" c!" " c!"/* a\n*/", sourceComment c!"f" c!" /* a\n*/ " c!"// b"] := by
  decide +kernel

example : ∃ l l', Lexer.next l = .ok () l' ∧ At c!"f" c!"\n;" l' ∧
    resultOf (Parser.parseInlineComment l') = some (some (sourceComment c!"f" c!"\n; " c!"/* a */")) := by
  have hn : NulFree c!"\n; /* a */ x" := by unfold NulFree; decide
  refine ⟨Lexer.new c!"\n; /* a */ x" c!"f", _, run_next (good_new hn), ⟨good_next (good_new hn) _, ?_⟩, ?_⟩
  · decide +kernel
  · decide +kernel

/-! ## Names and constants: C16-C18 -/

/-- C16: what `ReadFullIdent` returns is a dotted identifier, and exactly its tokens are consumed. -/
theorem fullIdent_reads {f pre : Str} {l l' : Lexer} {r : Str × SPos} (ha : At f pre l)
    (h : readFullIdent l = .ok r l') : ∃ ts, FullIdent r.1 (words ts) ∧ Consumed f pre l ts l' := by
  obtain ⟨ts, h1, h2, _⟩ := ok_of (readFullIdent_sat (sm := true) ha.good) h
  exact ⟨ts, h1, took_consumed ha h2⟩

/-- C17: what `ReadMessageType` returns is a message type, and exactly its tokens are consumed, unless
the end of the input is reached. -/
theorem messageType_reads_partial {f pre : Str} {l l' : Lexer} {r : Str × SPos} (ha : At f pre l)
    (h : readMessageType l = .ok r l') (hi : l'.scanner.inp ≠ []) :
    ∃ ts, MessageType r.1 (words ts) ∧ Consumed f pre l ts l' := by
  obtain ⟨ts, h1, h2, _⟩ := ok_of (readMessageType_sat (sm := true) ha.good) h
  exact ⟨ts, h1.whole hi, took_consumed ha h2⟩

/-- C17, also at the end of the input: the tokens consumed begin a message type. -/
theorem messageType_begins {f pre : Str} {l l' : Lexer} {r : Str × SPos} (ha : At f pre l)
    (h : readMessageType l = .ok r l') :
    ∃ ts s more, MessageType s (words ts ++ more) ∧ Consumed f pre l ts l' := by
  obtain ⟨ts, h1, h2, _⟩ := ok_of (readMessageType_sat (sm := true) ha.good) h
  obtain ⟨s, more, h1⟩ := h1.begins
  exact ⟨ts, s, more, h1, took_consumed ha h2⟩

theorem fullIdent_no_dot {s : Str} {ws : List Str} (h : FullIdent s ws) : s ≠ [] ∧ s.getLast? ≠ some '.' := by
  induction h with
  | one w hw =>
    cases hw with
    | mk c w hc hw =>
      refine ⟨by simp, fun h => ?_⟩
      have := List.mem_of_getLast? h
      have key : ¬ WordStart '.' ∧ ¬ WordChar '.' := by unfold WordStart WordChar; decide
      rcases List.mem_cons.1 this with rfl | h'
      · exact key.1 hc
      · exact key.2 (hw _ h')
  | more w s ws hw _ ih =>
    refine ⟨by simp, ?_⟩
    obtain ⟨ih1, ih2⟩ := ih
    cases s with
    | nil => exact absurd rfl ih1
    | cons c s => simpa [List.getLast?_append] using ih2

/-- C17 is violated at the end of the input: `a.` and the empty text are returned, which are no
message types. -/
theorem messageType_violation :
    (resultOf (readMessageType (Lexer.new c!" a. " []))).map Prod.fst = some c!"a." ∧
    (resultOf (readMessageType (Lexer.new c!"" []))).map Prod.fst = some [] ∧
    (∀ ws, ¬ MessageType c!"a." ws) ∧ ∀ ws, ¬ MessageType [] ws := by
  refine ⟨by decide +kernel, by decide +kernel, fun ws h => ?_, fun ws h => ?_⟩
  · generalize hs : c!"a." = s at h
    cases h with
    | plain _ _ h => exact (fullIdent_no_dot h).2 (by rw [← hs]; rfl)
    | dot _ _ h => simp at hs
  · generalize hs : ([] : Str) = s at h
    cases h with
    | plain _ _ h => exact (fullIdent_no_dot h).1 hs.symm
    | dot _ _ h => simp at hs

/-- C18: what `ReadConstant` returns is a constant of the grammar and the text of the tokens that were
consumed; in permissive mode adjacent strings are joined. -/
theorem constant_reads {f pre : Str} {l l' : Lexer} {r : Str × SPos} {permissive : Bool} (ha : At f pre l)
    (h : readConstant permissive l = .ok r l') :
    ∃ ts, Constant ⟨permissive, false, false⟩ r.1 (words ts) ∧ Consumed f pre l ts l' ∧
      (permissive = false → r.1 = (words ts).flatten) := by
  obtain ⟨ts, h1, h2, _⟩ := ok_of (readConstant_sat (sm := true) ha.good permissive false false) h
  refine ⟨ts, h1, took_consumed ha h2, ?_⟩
  rintro rfl
  have key : ∀ {s : Str} {ws : List Str}, FullIdent s ws → s = ws.flatten := by
    intro s ws h
    induction h with
    | one => simp
    | more w s ws _ _ ih => simp [ih]
  generalize words ts = ws at h1
  generalize r.1 = s at h1
  cases h1 with
  | name _ _ h => exact key h
  | bool => simp
  | number => simp
  | signed => simp
  | str => simp
  | strs _ h => simp at h
  | emptyMsg h => simp at h
  | emptyList h => simp at h
  | list _ _ _ h => simp at h
  | msg _ _ h => simp at h

example : (resultOf (readFullIdent (Lexer.new c!" foo /* c */ . bar ;" []))).map Prod.fst = some c!"foo.bar" ∧
    (resultOf (readMessageType (Lexer.new c!". foo . // c\n bar x" []))).map Prod.fst = some c!".foo.bar" ∧
    (resultOf (readConstant false (Lexer.new c!" - 1.5e3;" []))).map Prod.fst = some c!"-1.5e3" := by
  decide +kernel

/-! ## C43: text that is dropped -/

/-- C43: in a tree without empty statements every token of the file belongs to a node. -/
theorem nothing_dropped_partial {input : Str} (hn : NulFree input) {options : List ParseOpt} {fuel : Nat}
    {p : Proto} (h : parse fuel input options = .ok p) (hc : ∀ e, ¬ In (.emptyStatement e) p.protoBody) :
    ∃ ts, ProtoToks ⟨(configOf options).permissive, true, false⟩ p ts ∧ Layout (fileOf options) [] [] ts input := by
  have hc' : ¬ FileHasEmpty p.protoBody := by
    rintro ⟨x, hx, he⟩
    have key : ∀ {vs}, HasEmpty vs → ∃ e, In (.emptyStatement e) vs := by
      intro vs h
      induction h with
      | here e vs => exact ⟨e, .here _⟩
      | there v vs _ ih => obtain ⟨e, ih⟩ := ih; exact ⟨e, .there _ _ ih⟩
      | message x vs _ ih => obtain ⟨e, ih⟩ := ih; exact ⟨e, .message _ _ ih⟩
      | group x vs _ ih => obtain ⟨e, ih⟩ := ih; exact ⟨e, .group _ _ ih⟩
    obtain ⟨e, he⟩ := key he
    have key2 : ∀ {vs : List Visitee}, Visitee.message x ∈ vs → In (.emptyStatement e) vs := by
      intro vs h
      induction vs with
      | nil => simp at h
      | cons u vs ih =>
        rcases List.mem_cons.1 h with rfl | h
        · exact .message _ _ he
        · exact .there _ _ (ih h)
    exact hc e (key2 hx)
  obtain ⟨ts, h1, h2⟩ := parse_layout_partial hn h (.inr (.inl hc'))
  have hle : (gramOf options).Le ⟨(configOf options).permissive, true, false⟩ := ⟨rfl, fun _ => rfl⟩
  exact ⟨ts, h1.le hle (.inr hc), h2⟩

/-- C43 applies to a file with a package and an enum. -/
example : ∃ p, parse 60 c!"package a; enum E { X = 1; }" = .ok p ∧ p.protoBody.length = 2 ∧
    ∀ e, ¬ In (.emptyStatement e) p.protoBody := by
  obtain ⟨p, h1, h2⟩ := accepts_ok (f := fun p => match p.protoBody with
    | [.package _, .enum x] => match x.enumBody with | [.enumField _] => true | _ => false
    | _ => false) (o := parse 60 c!"package a; enum E { X = 1; }") (by decide +kernel)
  refine ⟨p, h1, ?_⟩
  split at h2
  · rename_i a x hp
    split at h2
    · rename_i y hy
      refine ⟨by simp [hp], fun e he => ?_⟩
      rw [hp] at he
      cases he with
      | there _ _ he =>
        cases he with
        | there _ _ he => cases he
        | enum _ _ he =>
          rw [hy] at he
          cases he with
          | there _ _ he => cases he
    · cases h2
  · cases h2

/-- C43 is violated: of `FOO` nothing is left in the tree, nor of the reserved range. -/
theorem dropped_violation :
    accepts (fun p => match p.protoBody with
      | [.enum x] => match x.enumBody with | [.emptyStatement _] => true | _ => false
      | _ => false) (parse 40 c!"enum E { FOO ; }") = true ∧
    accepts (fun p => match p.protoBody with
      | [.message x] => match x.messageBody with
        | [.reserved r] => decide (r.ranges = [] ∧ r.fieldNames = [c!"\"a\""])
        | _ => false
      | _ => false) (parse 40 c!"message M { reserved 1, \"a\"; }") = true := by
  decide +kernel

/-! ## C44: imports -/

/-- C44: an accepted import is `import`, an optional modifier, a string and a semicolon, and the
`Modifier` is the one that stands there.  Any other token in its place, but a string, is accepted as no
modifier. -/
theorem import_reads_partial {f pre : Str} {l l' : Lexer} {x : Import} (ha : At f pre l)
    (h : Parser.parseImport l = .ok x l') :
    ∃ ts, Consumed f pre l ts l' ∧ StrLit x.location ∧ Spans ts x.info ∧
      ((words ts = [c!"import", x.location, c!";"] ∧ x.modifier = .none) ∨
       (words ts = [c!"import", c!"public", x.location, c!";"] ∧ x.modifier = .public) ∨
       (words ts = [c!"import", c!"weak", x.location, c!";"] ∧ x.modifier = .weak) ∨
       ∃ w, w ≠ c!"public" ∧ w ≠ c!"weak" ∧ ¬ StrLit w ∧ words ts = [c!"import", w, x.location, c!";"] ∧
         x.modifier = .none) := by
  obtain ⟨ts, ⟨h1, ms, h2, h3, h4⟩, h5⟩ := ok_of
    (Parser.parseImport_sat (sm := true) (G := ⟨true, true, true⟩) rfl ha.good) h
  refine ⟨ts, took_consumed ha h5, h1, h4, ?_⟩
  generalize x.modifier = m at h2
  cases h2 with
  | none => exact .inl ⟨by simpa using h3, rfl⟩
  | «public» => exact .inr (.inl ⟨by simpa using h3, rfl⟩)
  | weak => exact .inr (.inr (.inl ⟨by simpa using h3, rfl⟩))
  | junk w _ h6 h7 h8 => exact .inr (.inr (.inr ⟨w, h6, h7, h8, by simpa using h3, rfl⟩))

/-- C44 is violated: `foo` and `;` are accepted in place of a modifier. -/
theorem import_violation :
    (resultOf (Parser.parseImport (Lexer.new c!"import foo \"x\";" []))).map Import.location = some c!"\"x\"" ∧
    (resultOf (Parser.parseImport (Lexer.new c!"import ; \"x\";" []))).map Import.location = some c!"\"x\"" := by
  decide +kernel

example : (resultOf (Parser.parseImport (Lexer.new c!"import public \"x\";" []))).map Import.modifier =
    some .public := by decide +kernel

/-! ## C48: declarations -/

/-- C48: an accepted declaration is a list of items, and each of its fields is the value of the last
item of its key. -/
theorem declaration_reads {f pre : Str} {l l' : Lexer} {x : Declaration} (ha : At f pre l)
    (h : Parser.parseDeclaration l = .ok x l') :
    ∃ ts, Consumed f pre l ts l' ∧ DeclarationToks x ts := by
  obtain ⟨is, h1, _, h2, _⟩ := ok_of (Parser.parseDeclaration_sat (sm := true) ha.good) h
  exact ⟨_, took_consumed ha h2.took, h1.1⟩

example : (resultOf (Parser.parseDeclaration (Lexer.new
    c!"declaration = { number: 1, type: \"a\" number: 2 repeated: true, repeated: false }" []))).map
      (fun x => (x.number, x.fullName, x.type, x.repeated)) = some (c!"2", [], c!"\"a\"", false) := by
  decide +kernel

end Verif.Props
