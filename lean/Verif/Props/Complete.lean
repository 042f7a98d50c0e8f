import Verif.Proofs.CompleteProto
import Verif.Props.Statements
import Verif.Spec.Bare

/-!
# Everything that is well-formed is accepted (C16-C18, C27, C44, C45, C47, C48)

The first part is about single reading functions, called in the middle of a file: `Spelled` says that
the text before `d` consists of the given spellings.  The second part is about `Parse`.
-/

set_option backward.isDefEq.respectTransparency false
set_option backward.dsimp.instances true

namespace Verif.Props
open Scanner Spec Lexer

/-! ## Texts that start with given spellings -/

/-- `Spelled d ws c`: before the text `d`, the text `c` consists of the spellings `ws` with a gap before
each of them. -/
inductive Spelled (d : Str) : List Str → Str → Prop
  | nil : Spelled d [] []
  | cons (g : Str) (cs : List (Str × Str)) (w : Str) (ws : List Str) (c : Str) :
      Gap true (w ++ (c ++ d)) g cs → Apart w (c ++ d) → Spelled d ws c → Spelled d (w :: ws) (g ++ (w ++ c))

/-- The text `d` is a gap and then the text `x`, which does not start with white space or a comment
(and is not just a float with superfluous leading zeros). -/
structure Follow (d x : Str) : Prop where
  gap : ∃ g cs, d = g ++ x ∧ Gap true x g cs
  solid : Solid x
  slash : x.head? ≠ some '/'
  zero : FloatLit x → ¬ LeadingZero x

/-- `x` as a list of spellings. -/
def tail (x : Str) : List Str := if x = [] then [] else [x]

theorem Follow.laid {d x : Str} (h : Follow d x) : Laid (tail x) d := by
  obtain ⟨g, cs, rfl, hg⟩ := h.gap
  unfold tail
  by_cases hx : x = []
  · subst hx
    rw [if_pos rfl, List.append_nil]
    exact .nil _ _ hg
  · rw [if_neg hx]
    have := Laid.cons g cs x [] [] (by simpa using hg)
      ⟨hx, by simpa using h.solid, h.slash, fun _ _ h => by simp at h, fun _ _ _ h => by simp at h, h.zero⟩
      (.nil [] [] .nil)
    simpa using this

theorem Spelled.laid {d c : Str} {ws rest : List Str} (h : Spelled d ws c) (hd : Laid rest d) :
    Laid (ws ++ rest) (c ++ d) := by
  induction h with
  | nil => exact hd
  | cons g cs w ws c hg ha _ ih =>
    rw [List.append_assoc, List.append_assoc]
    exact .cons g cs w _ _ hg ha ih

/-- The next spelling does not start with `c`. -/
def NotAhead (c : Char) (rest : List Str) : Prop := ∀ w ∈ rest.head?, w.head? ≠ some c

theorem free_of {bad : Str} {rest : List Str} (h : ∀ c ∈ bad, NotAhead c rest) : Free bad rest := by
  cases rest with
  | nil => trivial
  | cons w ws => exact fun c hc hb => h c hb w rfl hc

/-- Every text is a layout of at most one spelling, unless it goes on with a slash that starts no comment
or ends with a float with superfluous leading zeros; so the theorems below apply before every other
following text. -/
theorem laid_any (d : Str) : ∃ x, (∃ g cs, d = g ++ x ∧ Gap true x g cs) ∧ Solid x ∧
    (x.head? ≠ some '/' → (FloatLit x → ¬ LeadingZero x) → Laid (tail x) d) := by
  obtain ⟨g, cs, x, rfl, hg, _, hx⟩ := lex_solid (m := {}) rfl d
  exact ⟨x, ⟨g, cs, rfl, hg⟩, hx, fun hs hz => Follow.laid ⟨⟨g, cs, rfl, hg⟩, hx, hs, hz⟩⟩

/-! ## Single reading functions -/

/-- C16: every dotted identifier that is not followed by a dot is read, in every layout, and what follows
it is left. -/
theorem fullIdent_complete {f pre : Str} {l : Lexer} {s : Str} {ws rest : List Str} (ha : At f pre l)
    (hs : FullIdent s ws) (hl : Laid (ws ++ rest) l.scanner.inp) (hr : NotAhead '.' rest) :
    ∃ r l', readFullIdent l = .ok r l' ∧ r.1 = s ∧ Laid rest l'.scanner.inp := by
  obtain ⟨r, l', h, h1, h2⟩ := Sat.run (readFullIdent_go hs (free_of (by simpa using hr)) (ahead_here ha.good hl))
  exact ⟨r, l', h, h1, h2.laid⟩

/-- C17: every message type that is not followed by a dot is read, in every layout, and what follows it
is left. -/
theorem messageType_complete {f pre : Str} {l : Lexer} {s : Str} {ws rest : List Str} (ha : At f pre l)
    (hs : MessageType s ws) (hl : Laid (ws ++ rest) l.scanner.inp) (hr : NotAhead '.' rest) :
    ∃ r l', readMessageType l = .ok r l' ∧ r.1 = s ∧ Laid rest l'.scanner.inp := by
  obtain ⟨r, l', h, h1, h2⟩ := Sat.run (readMessageType_go hs (free_of (by simpa using hr)) (ahead_here ha.good hl))
  exact ⟨r, l', h, h1, h2.laid⟩

/-- C18: in strict mode every constant that is not followed by a dot or quote is read, in every layout. -/
theorem constant_complete {f pre : Str} {l : Lexer} {s : Str} {ws rest : List Str} (ha : At f pre l)
    (hs : Constant ⟨false, false, false⟩ s ws) (hl : Laid (ws ++ rest) l.scanner.inp)
    (hr : ∀ c ∈ ['.', '\'', '"'], NotAhead c rest) :
    ∃ r l', readConstant false l = .ok r l' ∧ r.1 = s ∧ Laid rest l'.scanner.inp := by
  have hf : Flat false s ws := by
    cases hs with
    | name _ _ h h' => exact .name _ _ h h'
    | bool _ h => exact .bool _ h
    | number _ h => exact .number _ h
    | signed _ _ h h' => exact .signed _ _ h h'
    | str _ h h' => exact .str _ rfl h'
    | strs _ h => simp at h
    | emptyMsg h => simp at h
    | emptyList h => simp at h
    | list _ _ _ h => simp at h
    | msg _ _ h => simp at h
  obtain ⟨r, l', h, h1, h2⟩ := Sat.run (readConstant_go hf (free_of hr) (fun h => absurd rfl h) (ahead_here ha.good hl))
  exact ⟨r, l', h, h1, h2.laid⟩

/-- C44: the three forms of an import are accepted, in every layout. -/
theorem import_complete {f pre : Str} {l : Lexer} {x : Import} {ts : List Tok} {rest : List Str}
    (ha : At f pre l) (hx : ImportToks ⟨false, false, false⟩ x ts)
    (hl : Laid (words ts ++ rest) l.scanner.inp) :
    ∃ r l', Parser.parseImport l = .ok r l' ∧ bareImport r = bareImport x ∧ Laid rest l'.scanner.inp := by
  obtain ⟨r, l', h, h1, h2⟩ := Sat.run (Parser.parseImport_go rfl hx (ahead_here ha.good hl))
  exact ⟨r, l', h, h1, h2.laid⟩

/-- C48: every declaration is accepted, with its items in any order, in every layout, and its fields are
the values of the last items of their keys. -/
theorem declaration_complete {f pre : Str} {l : Lexer} {x : Declaration} {ts : List Tok} {rest : List Str}
    (ha : At f pre l) (hx : DeclarationToks x ts) (hl : Laid (words ts ++ rest) l.scanner.inp) :
    ∃ r l', Parser.parseDeclaration l = .ok r l' ∧ bareDeclaration r = bareDeclaration x ∧
      Laid rest l'.scanner.inp := by
  obtain ⟨r, l', h, h1, h2⟩ := Sat.run (Parser.parseDeclaration_go hx (ahead_here ha.good hl))
  exact ⟨r, l', h, h1, h2.laid⟩

/-! ## C47: adjacent strings -/

/-- C47: in permissive mode adjacent string literals are read as one constant. -/
theorem strings_joined {f pre : Str} {l : Lexer} {ws rest : List Str} (ha : At f pre l) (hne : ws ≠ [])
    (hs : ∀ w ∈ ws, StrLit w) (hl : Laid (ws ++ rest) l.scanner.inp)
    (hr : ∀ c ∈ ['.', '\'', '"'], NotAhead c rest) :
    ∃ r l', readConstant true l = .ok r l' ∧ r.1 = joinStrings ws ∧ Laid rest l'.scanner.inp := by
  obtain ⟨r, l', h, h1, h2⟩ := Sat.run (readConstant_go (.strs ws rfl hne hs) (free_of hr) (fun h => absurd rfl h) (ahead_here ha.good hl))
  exact ⟨r, l', h, h1, h2.laid⟩

theorem looseValues_head {q : Char} {a : Str} (hq : q = '\'' ∨ q = '"') (ha : LooseValues q a) : a.head? ≠ some q := by
  have hb : ¬ '\\' = q := by rcases hq with rfl | rfl <;> decide
  cases ha with
  | nil => simp
  | plain c w h => simpa using h
  | escape => simpa using hb
  | stray => simpa using hb

theorem stripQuotes_plain {q : Char} {b : Str} (h : b.head? ≠ some q) (h' : b.getLast? ≠ some q) :
    stripQuotes q (q :: b ++ [q]) = b := by
  unfold stripQuotes
  have h1 : (q :: b ++ [q]).dropWhile (· = q) = (b ++ [q]).dropWhile (· = q) := by simp
  rw [h1]
  cases b with
  | nil => simp
  | cons c b =>
    have hc : ¬ c = q := by simpa using h
    have h2 : ((c :: b) ++ [q]).dropWhile (· = q) = (c :: b) ++ [q] := by simp [hc]
    rw [h2]
    have h3 : ((c :: b) ++ [q]).reverse.dropWhile (· = q) = ((c :: b).reverse).dropWhile (· = q) := by simp
    rw [h3]
    have h4 : ((c :: b).reverse).dropWhile (· = q) = (c :: b).reverse := by
      cases e : (c :: b).reverse with
      | nil => simp
      | cons d t =>
        have hd : ¬ d = q := by
          rw [← List.head?_reverse, e] at h'
          simpa using h'
        simp [hd]
    rw [h4, List.reverse_reverse]

/-- C47: the content of the constant is the concatenation of the contents, if the literals have the same
quotes and none of them has such a quote (an escaped one) at the end of its content. -/
theorem strings_concatenated_partial {f pre : Str} {l : Lexer} {q : Char} {bs : List Str} {rest : List Str}
    (ha : At f pre l) (hq : q = '\'' ∨ q = '"') (hne : bs ≠ []) (hb : ∀ b ∈ bs, b.getLast? ≠ some q)
    (hs : ∀ b ∈ bs, StrLit (q :: b ++ [q]))
    (hl : Laid (bs.map (fun b => q :: b ++ [q]) ++ rest) l.scanner.inp)
    (hr : ∀ c ∈ ['.', '\'', '"'], NotAhead c rest) :
    ∃ r l', readConstant true l = .ok r l' ∧ r.1 = q :: bs.flatten ++ [q] ∧ Laid rest l'.scanner.inp := by
  obtain ⟨r, l', h1, h2, h3⟩ := strings_joined ha (ws := bs.map (fun b => q :: b ++ [q])) (by simpa using hne)
    (by intro w hw; obtain ⟨b, h, rfl⟩ := List.mem_map.1 hw; exact hs b h) hl hr
  refine ⟨r, l', h1, ?_, h3⟩
  rw [h2]
  obtain ⟨b, bs', rfl⟩ := List.exists_cons_of_ne_nil hne
  have hqq : (if (((b :: bs').map (fun b => q :: b ++ [q])).headD []).head? = some '"' then '"' else '\'') = q := by
    rcases hq with rfl | rfl <;> simp
  unfold joinStrings
  simp only [hqq, List.map_map]
  have : (b :: bs').map (stripQuotes q ∘ fun b => q :: b ++ [q]) = b :: bs' := by
    conv => rhs; rw [← List.map_id (b :: bs')]
    refine List.map_congr_left (fun b hb' => stripQuotes_plain ?_ (hb b hb'))
    obtain ⟨q', b', hq', h4, e⟩ := hs b hb'
    simp only [List.cons_append, List.cons.injEq] at e
    obtain ⟨rfl, e⟩ := e
    obtain rfl := List.append_cancel_right e
    exact looseValues_head hq' h4
  rw [this]
  simp

/-- C47 is violated: an escaped quote at the end of a literal is lost, and so are the quotes of a literal
that has other quotes than the first kept. -/
theorem strings_violation :
    (resultOf (readConstant true (Lexer.new c!"\"a\\\"\" \"b\";" []))).map Prod.fst = some c!"\"a\\b\"" ∧
    (resultOf (readConstant true (Lexer.new c!"\"a\" 'b';" []))).map Prod.fst = some c!"\"a'b'\"" := by
  decide +kernel

/-! ## Layouts -/

/-- The spellings with a blank before each of them and a line break at the end. -/
def spaced : List Str → Str
  | [] => ['\n']
  | w :: ws => ' ' :: (w ++ spaced ws)

theorem spaced_head (ws : List Str) : ∀ c ∈ (spaced ws).head?, c = ' ' ∨ c = '\n' := by
  cases ws <;> simp [spaced]

/-- A spelling that may follow a blank: it starts with neither white space nor a slash. -/
structure Standing (w : Str) : Prop where
  head : ∃ c w', w = c :: w' ∧ ¬ White c ∧ c ≠ '/'
  zero : FloatLit w → ¬ LeadingZero w

theorem Standing.apart {w : Str} (h : Standing w) {x : Str} (hx : ∀ d ∈ x.head?, ¬ WordChar d ∧ d ≠ '.') : Apart w x := by
  obtain ⟨⟨c, w', rfl, h1, h2⟩, h3⟩ := h
  refine ⟨by simp, ⟨?_, ?_⟩, by simpa using h2, fun _ d hd => ?_, fun _ _ d hd => ?_, h3⟩
  · intro d hd
    simp only [List.cons_append, List.head?_cons, Option.some.injEq] at hd
    exact hd ▸ h1
  · intro raw text rest e hc
    have : raw.head? = some '/' := by cases hc <;> rfl
    cases raw with
    | nil => simp at this
    | cons a raw =>
      simp only [List.cons_append, List.cons.injEq] at e
      simp only [List.head?_cons, Option.some.injEq] at this
      exact h2 (e.1.trans this)
  · exact (hx d hd).1
  · exact (hx d hd).2

theorem apart_spaced {w : Str} (h : Standing w) (ws : List Str) : Apart w (spaced ws) := by
  refine h.apart (fun d hd => ?_)
  rcases spaced_head ws d hd with rfl | rfl <;> (unfold WordChar; decide)

/-- There is a layout of every list of spellings. -/
theorem laid_spaced {ws : List Str} (h : ∀ w ∈ ws, Standing w) : Laid ws (spaced ws) := by
  induction ws with
  | nil => exact .nil _ _ (.space '\n' [] [] (by unfold White; decide) .nil)
  | cons w ws ih =>
    exact .cons c!" " _ w ws (spaced ws) (.space ' ' [] [] (by unfold White; decide) .nil)
      (apart_spaced (h w (by simp)) ws) (ih (fun w hw => h w (by simp [hw])))

theorem after_drop {ws us : List Str} {t c : Str} (h : After ws t us c) : ∃ n, us = ws.drop n := by
  induction h with
  | refl => exact ⟨0, rfl⟩
  | step _ _ _ _ _ _ _ _ ih => obtain ⟨n, e⟩ := ih; exact ⟨n + 1, e⟩

theorem after_spaced {ws : List Str} (h : ∀ w ∈ ws, Standing w) (n : Nat) :
    After ws (spaced ws) (ws.drop n) (spaced (ws.drop n)) := by
  induction ws generalizing n with
  | nil => simpa using After.refl [] (spaced [])
  | cons w ws ih =>
    cases n with
    | zero => exact .refl _ _
    | succ n =>
      exact .step c!" " _ w ws (spaced ws) (.space ' ' [] [] (by unfold White; decide) .nil)
        (apart_spaced (h w (by simp)) ws) (ih (fun w hw => h w (by simp [hw])) n)

theorem spaced_untrailed {ws us : List Str} (h : ∀ w ∈ ws, Standing w) {c : Str} (ha : After ws (spaced ws) us c) :
    ¬ Trailed c := by
  obtain ⟨n, rfl⟩ := after_drop ha
  rw [Parser.after_unique ha (after_spaced h n)]
  rintro ⟨g, raw, text, rest, e, hg, hc⟩
  obtain ⟨r, hr⟩ : ∃ r, raw = '/' :: r := by cases hc <;> exact ⟨_, rfl⟩
  subst hr
  cases hd : ws.drop n with
  | nil =>
    rw [hd] at e
    cases g with
    | nil => simp [spaced] at e
    | cons d g =>
      simp only [spaced, List.cons_append, List.cons.injEq] at e
      exact (hg d (by simp)).2 e.1.symm
  | cons w us =>
    rw [hd] at e
    obtain ⟨⟨d, w', rfl, h1, h2⟩, _⟩ := h w (List.mem_of_mem_drop (hd ▸ List.mem_cons_self))
    cases g with
    | nil => simp [spaced] at e
    | cons a g =>
      simp only [spaced, List.cons_append, List.cons.injEq] at e
      cases g with
      | nil =>
        simp only [List.nil_append, List.cons.injEq] at e
        exact h2 e.2.1
      | cons b g =>
        simp only [List.cons_append, List.cons.injEq] at e
        exact h1 (e.2.1 ▸ (hg b (by simp)).1)

theorem drop_nils {G : Gram} {vs : List Visitee} : ∀ {ts : List Tok}, Spec.Body G .file vs ts →
    ∃ vs', .nil ∉ vs' ∧ Spec.Body G .file vs' ts := by
  induction vs with
  | nil => intro ts h; exact ⟨[], by simp, h⟩
  | cons v vs ih =>
    intro ts h
    cases h with
    | cons _ v ts1 vs ts2 h1 h2 h3 =>
      obtain ⟨vs', h4, h5⟩ := ih h2
      by_cases hv : v = .nil
      · subst hv
        cases h1
        exact ⟨vs', h4, h5⟩
      · exact ⟨v :: vs', by simp [h4, Ne.symm hv], .cons _ _ _ _ _ h1 h5 h3⟩

/-- C20 and C27: what `Parse` makes of a file of the grammar, in every layout.  It panics if a comment
stands on the line of a semicolon of its own; otherwise it returns the tree that the file denotes. -/
theorem parse_document {input : Str} (hn : NulFree input) {options : List ParseOpt} {q : Proto}
    {ts : List Tok} (hq : ProtoToks (grammarOf options) q ts) (hs : .nil ∉ q.protoBody)
    (hl : Laid (words ts) input) {fuel : Nat} (hf : input.length < fuel) :
    (CommentBehindSemi (grammarOf options) ts input ∧ parse fuel input options = .panic) ∨
    (¬ CommentBehindSemi (grammarOf options) ts input ∧
      ∃ p, parse fuel input options = .ok p ∧ bareProto p = fileTree q) := by
  have hlen := laid_length hl
  simp only [words, List.length_map] at hlen
  have ha := ahead_here (l := Lexer.new input (fileOf options)) (good_new hn) hl
  by_cases hc : CommentBehindSemi (grammarOf options) ts input
  · refine .inl ⟨hc, ?_⟩
    obtain ⟨us, c, ⟨x, ts1, s, rfl, h1, h2, h3⟩, h4, h5⟩ := hc
    obtain ⟨x', hx', h2⟩ : ∃ x', .nil ∉ x'.protoBody ∧ ProtoToks (grammarOf options) x' ts1 := by
      cases h2 with
      | mk bom ss es bs hb k1 k2 k3 =>
        obtain ⟨vs', k4, k5⟩ := drop_nils k3
        exact ⟨{ x with protoBody := vs' }, k4, .mk _ _ _ _ _ hb k1 k2 k5⟩
    have := Parser.parseProto_panics (calm := false) (cfg := cfgOf fuel options) (G := grammarOf options) rfl rfl rfl h2 hx' h1 h3
      (by simp only [List.length_append] at hlen; show ts1.length < fuel; omega) ha h4 h5
    rw [Parser.parseProtoK_false] at this
    show Outcome.ofRes (Parser.parseProto (cfgOf fuel options) (Lexer.new input (fileOf options))) = _
    generalize Parser.parseProto (cfgOf fuel options) (Lexer.new input (fileOf options)) = r at this
    cases r with
    | ok a l' => exact this.elim
    | err e l' => exact this.elim
    | halt k => rw [show k = .panic from this]; rfl
  · refine .inr ⟨hc, ?_⟩
    obtain ⟨p, l', h, h1, _⟩ := Sat.run (Parser.parseProto_go (calm := false) (H := NoHalt) (cfg := cfgOf fuel options)
      (l := Lexer.new input (fileOf options)) (G := grammarOf options) rfl rfl rfl hq hs
      (fun us c _ _ h1 h2 h3 => absurd ⟨us, c, h1, h2, h3⟩ hc) (by show ts.length < fuel; omega) ha)
    refine ⟨p, ?_, h1⟩
    show Outcome.ofRes (Parser.parseProto (cfgOf fuel options) (Lexer.new input (fileOf options))) = _
    rw [← Parser.parseProtoK_false, h]
    rfl

/-- C20: on a file of the grammar `Parse` panics if and only if a comment stands on the line of a
semicolon of its own. -/
theorem document_panics {input : Str} (hn : NulFree input) {options : List ParseOpt} {q : Proto}
    {ts : List Tok} (hq : ProtoToks (grammarOf options) q ts) (hs : .nil ∉ q.protoBody)
    (hl : Laid (words ts) input) {fuel : Nat} (hf : input.length < fuel) :
    parse fuel input options = .panic ↔ CommentBehindSemi (grammarOf options) ts input := by
  rcases parse_document hn hq hs hl hf with ⟨h1, h2⟩ | ⟨h1, p, h2, _⟩
  · simp [h1, h2]
  · simp [h1, h2]

/-- C27: every file of the grammar is accepted in every layout, and the tree, without comments and
positions, is the one that the file denotes.  A comment on the line of a semicolon of its own is
excluded: the code panics (`document_panics`).  The tree of a semicolon of its own has a nil element
behind it (`fileTree`). -/
theorem parse_complete_partial {input : Str} (hn : NulFree input) {options : List ParseOpt} {q : Proto}
    {ts : List Tok} (hq : ProtoToks (grammarOf options) q ts) (hs : .nil ∉ q.protoBody)
    (hl : Laid (words ts) input) (hc : ¬ CommentBehindSemi (grammarOf options) ts input) {fuel : Nat}
    (hf : input.length < fuel) :
    ∃ p, parse fuel input options = .ok p ∧ bareProto p = fileTree q := by
  rcases parse_document hn hq hs hl hf with ⟨h, _⟩ | ⟨_, h⟩
  · exact absurd h hc
  · exact h

/-- No semicolon stands on its own at the top level of the file. -/
def NoLoneSemi (p : Proto) : Prop := ∀ v ∈ p.protoBody, v ≠ .nil ∧ ∀ e, v ≠ .emptyStatement e

/-- C27: without semicolons of their own at the top level, every file of the grammar is accepted in every
layout, and the tree is the file, but for comments and positions. -/
theorem parse_plain {input : Str} (hn : NulFree input) {options : List ParseOpt} {q : Proto}
    {ts : List Tok} (hq : ProtoToks (grammarOf options) q ts) (hs : NoLoneSemi q)
    (hl : Laid (words ts) input) {fuel : Nat} (hf : input.length < fuel) :
    ∃ p, parse fuel input options = .ok p ∧ bareProto p = bareProto q := by
  have hlen := laid_length hl
  simp only [words, List.length_map] at hlen
  have hne : ∀ e, Visitee.emptyStatement e ∉ q.protoBody := fun e he => (hs _ he).2 e rfl
  obtain ⟨p, l', h, h1, _⟩ := Sat.run (Parser.parseProto_go (calm := false) (H := NoHalt) (cfg := cfgOf fuel options)
    (l := Lexer.new input (fileOf options)) (G := grammarOf options) rfl rfl rfl hq (fun h => (hs _ h).1 rfl)
    (fun us c e h0 _ _ _ => absurd h0 (hne e)) (by show ts.length < fuel; omega) (ahead_here (good_new hn) hl))
  refine ⟨p, ?_, ?_⟩
  · show Outcome.ofRes (Parser.parseProto (cfgOf fuel options) (Lexer.new input (fileOf options))) = _
    rw [← Parser.parseProtoK_false, h]
    rfl
  · rw [h1, fileTree, Parser.withNils_id (Parser.bareAll_no_empty hne)]
    rfl

/-- C27: printing a file of the grammar and parsing it gives the file back. -/
theorem print_parse {options : List ParseOpt} {q : Proto} {ts : List Tok}
    (hq : ProtoToks (grammarOf options) q ts) (hs : .nil ∉ q.protoBody) (hw : ∀ w ∈ words ts, Standing w ∧ NulFree w) :
    ∃ p, Parses (spaced (words ts)) options (.ok p) ∧ bareProto p = fileTree q := by
  have hn : NulFree (spaced (words ts)) := by
    generalize words ts = ws at hw
    induction ws with
    | nil => intro c hc; simp [spaced] at hc; subst hc; decide
    | cons w ws ih =>
      intro c hc
      simp only [spaced, List.mem_cons, List.mem_append] at hc
      rcases hc with rfl | hc | hc
      · decide
      · exact (hw w (by simp)).2 c hc
      · exact ih (fun w h => hw w (by simp [h])) c hc
  have hl := laid_spaced (fun w h => (hw w h).1)
  rcases parse_document hn hq hs hl (Nat.lt_succ_self _) with ⟨⟨us, c, h1, h2, h3⟩, _⟩ | ⟨_, p, h1, h2⟩
  · exact absurd h3 (spaced_untrailed (fun w h => (hw w h).1) h2)
  · exact ⟨p, ⟨by simp, _, h1⟩, h2⟩

/-! ## C45: layouts of the same file -/

/-- C45: two layouts of the same file give trees that differ only in comments and positions, unless the
parser panics at a comment on the line of a semicolon of its own. -/
theorem layout_irrelevant_partial {input input' : Str} (hn : NulFree input) (hn' : NulFree input')
    {options : List ParseOpt} {q : Proto} {ts : List Tok} (hq : ProtoToks (grammarOf options) q ts)
    (hs : .nil ∉ q.protoBody) (hl : Laid (words ts) input) (hl' : Laid (words ts) input')
    (hc : ¬ CommentBehindSemi (grammarOf options) ts input)
    (hc' : ¬ CommentBehindSemi (grammarOf options) ts input') {fuel : Nat}
    (hf : input.length < fuel) (hf' : input'.length < fuel) :
    ∃ p p', parse fuel input options = .ok p ∧ parse fuel input' options = .ok p' ∧
      bareProto p = bareProto p' := by
  rcases parse_document hn hq hs hl hf with ⟨h, _⟩ | ⟨_, p, h1, h2⟩
  · exact absurd h hc
  rcases parse_document hn' hq hs hl' hf' with ⟨h, _⟩ | ⟨_, p', h1', h2'⟩
  · exact absurd h hc'
  exact ⟨p, p', h1, h1', h2.trans h2'.symm⟩

/-! ## The theorems apply -/

/-- A token of a text whose positions do not matter. -/
def tokOf (w : Str) : Tok := ⟨w, {}⟩

theorem words_tokOf (ws : List Str) : words (ws.map tokOf) = ws := by
  simp [words, tokOf, Function.comp_def]

theorem spans_tokOf {ws : List Str} (h : ws ≠ []) : Spans (ws.map tokOf) {} := by
  refine ⟨?_, ?_⟩
  · obtain ⟨w, ws, rfl⟩ := List.exists_cons_of_ne_nil h
    exact ⟨_, _, rfl, rfl⟩
  · refine ⟨ws.dropLast.map tokOf, tokOf (ws.getLast h), ?_, rfl⟩
    conv => lhs; rw [← List.dropLast_concat_getLast h]
    simp

theorem word_of {c : Char} {w : Str} (h : (c ∈ letters ∨ c = '_') ∧
    ∀ d ∈ w, d ∈ letters ∨ d ∈ decimals ∨ d = '_') : Word (c :: w) := .mk c w h.1 h.2

/-- `repeated .a.B f = 1 [ x = -1.5 ] ;` -/
def sampleField : Field :=
  { isRepeated := true, isRequired := false, isOptional := false, type := c!".a.B", fieldName := c!"f"
    fieldNumber := c!"1", fieldOptions := [{ optionName := c!"x", constant := c!"-1.5" }], info := {} }

/-- `syntax = "proto3" ; message M { message N { } ; repeated .a.B f = 1 [ x = -1.5 ] ; }` -/
def sampleFile : Proto :=
  { syntax_ := some { protobufVersion := c!"proto3", protobufVersionQuote := c!"\"proto3\"", info := {} }
    edition := none
    protoBody := [.message
      { messageName := c!"M"
        messageBody := [
          .message { messageName := c!"N", messageBody := [], info := {} },
          .field sampleField]
        info := {} }]
    metaFilename := [] }

def sampleWords : List Str :=
  [c!"syntax", c!"=", c!"\"", c!"proto3", c!"\"", c!";",
   c!"message", c!"M", c!"{", c!"message", c!"N", c!"{", c!"}", c!";",
   c!"repeated", c!".", c!"a", c!".", c!"B", c!"f", c!"=", c!"1", c!"[", c!"x", c!"=", c!"-", c!"1.5", c!"]", c!";",
   c!"}"]

theorem sample_file : ProtoToks ⟨true, false, false⟩ sampleFile (sampleWords.map tokOf) := by
  have hN : Toks ⟨true, false, false⟩ .message (.message { messageName := c!"N", messageBody := [], info := {} })
      ([c!"message", c!"N", c!"{", c!"}", c!";"].map tokOf) := by
    exact .message .message { messageName := c!"N", messageBody := [], info := {} }
      ([c!"message", c!"N", c!"{"].map tokOf) [] ([c!"}", c!";"].map tokOf) (.inr rfl) rfl (word_of (by decide)) (.nil _)
      (.inr ⟨rfl, rfl⟩) (spans_tokOf (ws := [c!"message", c!"N", c!"{", c!"}", c!";"]) (by simp))
  have hF : Toks ⟨true, false, false⟩ .message (.field sampleField)
      ([c!"repeated", c!".", c!"a", c!".", c!"B", c!"f", c!"=", c!"1", c!"[", c!"x", c!"=", c!"-", c!"1.5", c!"]",
        c!";"].map tokOf) := by
    refine .field .message _ _ (.inl rfl) ⟨word_of (by decide), .decimal '1' [] (by decide) (by decide) (by unfold Over; decide), ?_⟩ ?_
    · refine ⟨[c!"repeated"], [c!".", c!"a", c!".", c!"B"], [c!"[", c!"x", c!"=", c!"-", c!"1.5", c!"]"], .repeated, ?_, by simp,
        ?_, words_tokOf _, spans_tokOf (by simp)⟩
      · exact .named _ _ (.dot _ _ (.more c!"a" c!"B" [c!"B"] (word_of (by decide)) (.one _ (word_of (by decide)))))
          (by decide)
      · refine .some _ [c!"x", c!"=", c!"-", c!"1.5"] (.one _ _ ⟨[c!"x"], [c!"-", c!"1.5"],
          .one _ _ (.ident _ (word_of (by decide))), ?_, rfl⟩)
        exact .signed c!"-" c!"1.5" (.inl rfl) (.inr (.full c!"1" c!"5" [] (by unfold Decimals Over; decide)
          (by unfold Over; decide) (.inl rfl)))
    · intro _; decide
  have hM := Toks.message (G := ⟨true, false, false⟩) .file
      { messageName := c!"M", messageBody := [_, _], info := {} }
      ([c!"message", c!"M", c!"{"].map tokOf) _ ([c!"}"].map tokOf) (.inl rfl) rfl (word_of (by decide))
      (.cons .message _ _ _ _ hN (.cons .message _ _ _ _ hF (.nil _) (fun _ _ => by unfold Tight; decide))
        (fun _ _ => by unfold Tight; decide)) (.inl rfl)
      (spans_tokOf (ws := [c!"message", c!"M", c!"{", c!"message", c!"N", c!"{", c!"}", c!";", c!"repeated", c!".",
        c!"a", c!".", c!"B", c!"f", c!"=", c!"1", c!"[", c!"x", c!"=", c!"-", c!"1.5", c!"]", c!";", c!"}"])
        (by simp))
  exact ProtoToks.mk sampleFile [] ([c!"syntax", c!"=", c!"\"", c!"proto3", c!"\"", c!";"].map tokOf) [] _ (.inl rfl)
    (.some _ _ ⟨.inr rfl, c!"\"", c!"\"", .inr rfl, .inr rfl, rfl, rfl,
      spans_tokOf (ws := [c!"syntax", c!"=", c!"\"", c!"proto3", c!"\"", c!";"]) (by simp)⟩) .none
    (.cons .file _ _ _ _ hM (.nil _) (fun _ _ => by unfold Tight; decide))

theorem standing_of {w : Str} (h : (w.headD '/').toNat ∉ whiteSpace ∧ w.headD '/' ≠ '/' ∧ w.headD '/' ≠ '0') :
    Standing w := by
  cases w with
  | nil => simp at h
  | cons c w =>
    refine ⟨⟨c, w, rfl, h.1, h.2.1⟩, fun _ ⟨d, w', e, _⟩ => h.2.2 ?_⟩
    rw [e]; rfl

/-- C27 and C45 apply to a file with a nested message, a message type, a label and options. -/
example : ∃ p, Parses (spaced sampleWords) [] (.ok p) ∧ bareProto p = fileTree sampleFile := by
  have h := sample_file
  have := print_parse (options := []) h (by simp [sampleFile]) (by
    rw [words_tokOf]
    intro w hw
    have key : ∀ w ∈ sampleWords, ((w.headD '/').toNat ∉ whiteSpace ∧ w.headD '/' ≠ '/' ∧ w.headD '/' ≠ '0') ∧
      ∀ c ∈ w, c ≠ eof := by decide +kernel
    exact ⟨standing_of (key w hw).1, (key w hw).2⟩)
  rwa [words_tokOf] at this

/-- `package p ; ; import "a" ;` -/
def semiFile : Proto :=
  { syntax_ := none, edition := none
    protoBody := [.package { name := c!"p", info := {} }, .emptyStatement {},
      .importStmt { modifier := .none, location := c!"\"a\"", info := {} }]
    metaFilename := [] }

theorem semi_package : Toks ⟨true, false, false⟩ .file (.package { name := c!"p", info := {} })
    ([c!"package", c!"p", c!";"].map tokOf) :=
  .package _ _ ⟨[c!"p"], .one _ (word_of (by decide)), rfl, spans_tokOf (by simp)⟩

theorem semi_file : ProtoToks ⟨true, false, false⟩ semiFile
    ([c!"package", c!"p", c!";", c!";", c!"import", c!"\"a\"", c!";"].map tokOf) := by
  have hP := semi_package
  have hI : Toks ⟨true, false, false⟩ .file (.importStmt { modifier := .none, location := c!"\"a\"", info := {} })
      ([c!"import", c!"\"a\"", c!";"].map tokOf) :=
    .importStmt _ _ ⟨grammar_str (.inr rfl) (.cons _ _ (.plain 'a' (by decide) (by decide) (by decide)) .nil), [], .none, rfl,
      spans_tokOf (by simp)⟩
  exact ProtoToks.mk semiFile [] [] [] _ (.inl rfl) .none .none
    (.cons .file _ _ _ _ hP (.cons .file _ _ _ _ (.empty .file {} (tokOf c!";") rfl)
      (.cons .file _ _ _ _ hI (.nil _) (fun _ _ => by unfold Tight; decide)) (fun _ _ => by unfold Tight; decide))
      (fun _ _ => by unfold Tight; decide))

theorem white_blank : White ' ' := by unfold White; decide

/-- The text behind the semicolon of its own, in a layout of `semiFile` with a given gap there. -/
theorem semi_laid {b : Char} (hb : b = ' ' ∨ b = '\n') {g : Str} (e : g = b :: c!"// c\n") :
    Laid (words ([c!"package", c!"p", c!";", c!";", c!"import", c!"\"a\"", c!";"].map tokOf))
      (c!"package p; ;" ++ (g ++ c!"import \"a\";")) ∧
    After (words ([c!"package", c!"p", c!";", c!";", c!"import", c!"\"a\"", c!";"].map tokOf))
      (c!"package p; ;" ++ (g ++ c!"import \"a\";")) (words ([c!"import", c!"\"a\"", c!";"].map tokOf))
      (g ++ c!"import \"a\";") := by
  have st : ∀ w ∈ [c!"package", c!"p", c!";", c!"import", c!"\"a\""], Standing w := by
    intro w hw
    refine standing_of ?_
    revert w
    decide
  have hs : ∀ d ∈ (g ++ c!"import \"a\";").head?, ¬ WordChar d ∧ d ≠ '.' := by
    intro d hd
    rw [e] at hd
    simp at hd
    subst hd
    rcases hb with rfl | rfl <;> (unfold WordChar; decide)
  have hg := Gap.space (com := true) (rest := c!"import \"a\";") b _ _ (by rcases hb with rfl | rfl <;> (unfold White; decide))
    (.comment c!"// c\n" c!"// c" [] [] rfl (.line c!" c" (by decide)) .nil)
  rw [List.append_nil, ← e] at hg
  have sp : ∀ (t : Str), Gap true t c!" " [] := fun t => .space ' ' [] [] white_blank .nil
  have a1 : Apart c!"package" (c!" p; ;" ++ (g ++ c!"import \"a\";")) :=
    (st _ (by simp)).apart (by intro d hd; simp at hd; subst hd; unfold WordChar; decide)
  have a2 : Apart c!"p" (c!"; ;" ++ (g ++ c!"import \"a\";")) :=
    (st _ (by simp)).apart (by intro d hd; simp at hd; subst hd; unfold WordChar; decide)
  have a3 : Apart c!";" (c!" ;" ++ (g ++ c!"import \"a\";")) :=
    (st _ (by simp)).apart (by intro d hd; simp at hd; subst hd; unfold WordChar; decide)
  have a4 : Apart c!";" (g ++ c!"import \"a\";") := (st _ (by simp)).apart hs
  have a5 : Apart c!"import" c!" \"a\";" :=
    (st _ (by simp)).apart (by intro d hd; simp at hd; subst hd; unfold WordChar; decide)
  have a6 : Apart c!"\"a\"" c!";" :=
    (st _ (by simp)).apart (by intro d hd; simp at hd; subst hd; unfold WordChar; decide)
  have a7 : Apart c!";" [] := (st _ (by simp)).apart (by simp)
  refine ⟨.cons [] _ _ _ _ .nil a1 (.cons c!" " _ _ _ _ (sp _) a2 (.cons [] _ _ _ _ .nil a3 (.cons c!" " _ _ _ _ (sp _) a4
    (.cons g _ _ _ _ hg a5 (.cons c!" " _ _ _ _ (sp _) a6 (.cons [] _ _ _ _ .nil a7 (.nil [] [] .nil))))))), ?_⟩
  exact .step [] _ _ _ _ .nil a1 (.step c!" " _ _ _ _ (sp _) a2 (.step [] _ _ _ _ .nil a3 (.step c!" " _ _ _ _ (sp _) a4 (.refl _ _))))

/-- C20 applies to a file with a comment behind a semicolon of its own. -/
example : parse 100 c!"package p; ; // c\nimport \"a\";" [] = .panic := by
  obtain ⟨hl, ha⟩ := semi_laid (.inl rfl) rfl
  refine (document_panics (options := []) (by unfold NulFree; decide) semi_file (by simp [semiFile]) hl (by decide)).2
    ⟨_, _, ⟨{ semiFile with protoBody := [.package { name := c!"p", info := {} }] }, [c!"package", c!"p", c!";"].map tokOf,
      tokOf c!";", rfl, rfl, ?_, by decide⟩, ha, c!" ", c!"// c\n", _, _, rfl, ?_, .line c!" c" (by decide)⟩
  · exact ProtoToks.mk _ [] [] [] _ (.inl rfl) .none .none
      (.cons .file _ _ _ _ semi_package (.nil _) (fun _ _ => by unfold Tight; decide))
  · intro x hx
    simp at hx
    subst hx
    exact ⟨white_blank, by decide⟩

/-- C27 applies if the comment stands on the next line. -/
example : ∃ p, parse 100 c!"package p; ;\n// c\nimport \"a\";" [] = .ok p ∧ bareProto p = fileTree semiFile := by
  obtain ⟨hl, ha⟩ := semi_laid (.inr rfl) rfl
  rcases parse_document (options := []) (fuel := 100) (by unfold NulFree; decide) semi_file (by simp [semiFile]) hl (by decide)
    with ⟨_, h⟩ | ⟨_, h⟩
  · have : panics (parse 100 c!"package p; ;\n// c\nimport \"a\";" []) = false := by decide +kernel
    exact absurd (this.symm.trans (panics_iff.2 h)) (by simp)
  · exact h

theorem laid_sample {ws : List Str} (h : ∀ w ∈ ws, (w.headD '/').toNat ∉ whiteSpace ∧ w.headD '/' ≠ '/' ∧
    w.headD '/' ≠ '0') : Laid ws (spaced ws) := laid_spaced (fun w hw => standing_of (h w hw))

/-- C16 and C17 apply to ` . foo . bar ;`. -/
example : ∃ r l', readMessageType (Lexer.new c!" . foo . bar ;\n" []) = .ok r l' ∧ r.1 = c!".foo.bar" ∧
    Laid [c!";"] l'.scanner.inp :=
  messageType_complete (f := []) (at_new (by unfold NulFree; decide))
    (.dot c!"foo.bar" [c!"foo", c!".", c!"bar"] (.more c!"foo" c!"bar" _ (word_of (by decide))
      (.one _ (word_of (by decide))))) (laid_sample (ws := [c!".", c!"foo", c!".", c!"bar", c!";"]) (by decide))
    (by intro w hw; simp at hw; subst hw; decide)

/-- C18 applies to ` - 1.5 ;`. -/
example : ∃ r l', readConstant false (Lexer.new c!" - 1.5 ;\n" []) = .ok r l' ∧ r.1 = c!"-1.5" ∧
    Laid [c!";"] l'.scanner.inp :=
  constant_complete (f := []) (at_new (by unfold NulFree; decide))
    (.signed c!"-" c!"1.5" (.inl rfl) (.inr (.full c!"1" c!"5" [] (by unfold Decimals Over; decide)
      (by unfold Over; decide) (.inl rfl))))
    (laid_sample (ws := [c!"-", c!"1.5", c!";"]) (by decide))
    (by intro c hc w hw; simp at hw; subst hw; revert c; decide)

/-- C48 applies to a declaration with a repeated key. -/
example : ∃ r l', Parser.parseDeclaration (Lexer.new (spaced [c!"declaration", c!"=", c!"{", c!"number", c!":",
      c!"1", c!",", c!"number", c!":", c!"2", c!"}"]) []) = .ok r l' ∧ r.number = c!"2" := by
  have hi : ∀ {c : Char}, c ∈ ['1', '2'] → IntLit [c] := by
    intro c hc
    refine .decimal c [] ?_ ?_ (by unfold Over; simp) <;> revert c <;> decide
  obtain ⟨r, l', h1, h2, _⟩ := declaration_complete (f := []) (rest := [])
    (at_new (input := spaced [c!"declaration", c!"=", c!"{", c!"number", c!":",
      c!"1", c!",", c!"number", c!":", c!"2", c!"}"]) (by unfold NulFree; decide))
    (x := { number := c!"2", fullName := [], type := [], reserved := false, repeated := false, info := {} })
    (ts := [c!"declaration", c!"=", c!"{", c!"number", c!":",
      c!"1", c!",", c!"number", c!":", c!"2", c!"}"].map tokOf)
    ⟨[.number c!"1", .number c!"2"], _, .plain _ _ _ _ (.number c!"1" (hi (by simp)))
      (.comma _ _ _ _ (.number c!"2" (hi (by simp))) .nil), rfl, rfl, rfl, rfl, rfl, rfl, spans_tokOf (by simp)⟩
    (laid_sample (by decide))
  exact ⟨r, l', h1, congrArg Declaration.number h2⟩

/-- C47 applies to `"a" "b" ;`. -/
example : ∃ r l', readConstant true (Lexer.new c!" \"a\" \"b\" ;\n" []) = .ok r l' ∧ r.1 = c!"\"ab\"" ∧
    Laid [c!";"] l'.scanner.inp :=
  strings_concatenated_partial (f := []) (q := '"') (bs := [c!"a", c!"b"])
    (at_new (by unfold NulFree; decide)) (.inr rfl) (by simp) (by decide)
    (by
      have : ∀ c ∈ ['a', 'b'], c ≠ '"' ∧ c ≠ '\n' ∧ c ≠ '\\' := by decide
      intro b hb
      simp at hb
      rcases hb with rfl | rfl
      · exact grammar_str (.inr rfl) (.cons _ _ (.plain 'a' (by decide) (by decide) (by decide)) .nil)
      · exact grammar_str (.inr rfl) (.cons _ _ (.plain 'b' (by decide) (by decide) (by decide)) .nil))
    (laid_sample (ws := [c!"\"a\"", c!"\"b\"", c!";"]) (by decide))
    (by intro c hc w hw; simp at hw; subst hw; revert c; decide)

end Verif.Props
