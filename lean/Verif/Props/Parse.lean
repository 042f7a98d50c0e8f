import Verif.Proofs.CompleteProto
import Verif.Props.Bound
import Verif.Spec.Nodes
import Verif.Props.Scanner

/-!
# What `Parse` accepts (C19-C26, C28, C29, C50)

All theorems are about `parse`, the model of `protoparser.Parse`, for every input without NUL and
every list of options.  `Settled options input p` excludes the histories in which the parser puts a
token back twice (only after a failed group; see `group_text_violation`).
-/

set_option backward.isDefEq.respectTransparency false
set_option backward.dsimp.instances true

namespace Verif.Props
open Scanner Spec Lexer

/-- The grammar that the parser follows in a configuration. -/
def gramOf (options : List ParseOpt) : Gram := ⟨(configOf options).permissive, true, true⟩

/-- The grammar without what the code accepts beyond it. -/
def grammarOf (options : List ParseOpt) : Gram := ⟨(configOf options).permissive, false, false⟩

/-- The input is a file of the grammar, in some layout. -/
def WellFormed (options : List ParseOpt) (input : Str) : Prop :=
  ∃ q ts, ProtoToks (grammarOf options) q ts ∧ .nil ∉ q.protoBody ∧ Laid (words ts) input

/-- The file name in a configuration. -/
def fileOf (options : List ParseOpt) : Str := (configOf options).filename

def cfgOf (fuel : Nat) (options : List ParseOpt) : Cfg :=
  { permissive := (configOf options).permissive,
    bodyIncludingComments := (configOf options).bodyIncludingComments, fuel }

theorem good_new {input f : Str} (h : NulFree input) : Good (Lexer.new input f) :=
  ⟨h, by intro c hc; simp [Lexer.new, Scanner.new] at hc, rfl⟩

theorem lay_text {f : Str} {pre rest c : Str} {ts : List Tok}
    (h : Lay ((SPos.new f).advanceAll pre) rest ts c) : Layout f pre rest ts c := by
  generalize hp : (SPos.new f).advanceAll pre = p at h
  induction h generalizing pre with
  | nil g cs h => exact .nil g cs h
  | cons g cs w ts c h hw hs hx _ ih =>
    subst hp
    have e : (((SPos.new f).advanceAll pre).advanceAll g).p = posAt f (pre ++ g) := by
      rw [← SPos.advanceAll_append, SPos.advanceAll_new]
    rw [e]
    exact .cons g cs w ts c h hw hs hx (ih (by rw [← SPos.advanceAll_append]; simp))

theorem eof_gap {l : Lexer} (hg : Good l) (h : (nextSt {} l).token = .eof) :
    ∃ cs, Gap true [] l.scanner.inp cs := by
  obtain ⟨⟨_, ⟨c, h1, _, h3, _⟩, _⟩, h2, _⟩ := eof_took hg (m := {}) rfl h
  rw [h2] at h1 h3
  simp only [List.append_nil] at h1
  rw [h1]
  cases h3 with
  | nil g cs h => exact ⟨cs, h⟩

/-- A file that was read to its end is a layout of the tokens. -/
theorem took_text {input f : Str} {ts : List Tok} {l : Lexer} (h : Took (Lexer.new input f) ts l)
    (he : (nextSt {} l).token = .eof) : Layout f [] [] ts input := by
  obtain ⟨cs, hgap⟩ := eof_gap h.good he
  obtain ⟨_, ⟨c, h1, h2, h3, _⟩, _⟩ := h
  have h1 : input = c ++ l.scanner.inp := h1
  have := lay_append (rest := []) (c1 := c) (c2 := l.scanner.inp) (ts2 := []) (by simpa using h3) (.nil _ cs hgap)
  rw [h1]
  simp only [List.append_nil] at this
  exact lay_text (pre := []) this

/-- `parse` returns a tree whose tokens and comments are those of the input. -/
theorem parse_items {H : Halt → Prop} {input : Str} (hn : NulFree input) (fuel : Nat) (options : List ParseOpt)
    (hp : (∃ ts l1, Parser.Head ts ∧ Took (Lexer.new input (fileOf options)) ts l1 ∧
      PanicAt false (gramOf options) l1) → H .panic)
    (hd : H .fuel ∨ (NoGroup input ∧ input.length < fuel)) :
    Sat H (fun r l' => (∃ ts, ProtoToks (gramOf options) r ts ∧
        (NoGroup input ∨ ¬ FileHasEmpty r.protoBody → ∃ is, toks is = ts ∧
          ComProto (gramOf options) (configOf options).bodyIncludingComments r is ∧
          TookI (Lexer.new input (fileOf options)) is l')) ∧
        Good l' ∧ (nextSt {} l').token = .eof ∧ NoCom l')
      (BadN false (!(configOf options).permissive) (Lexer.new input (fileOf options)))
      (runProto fuel (configOf options) input) := by
  have := Parser.parseProto_sat (calm := false) (cfg := cfgOf fuel options) (good_new hn) ⟨[], Inv.new _ _⟩ hp hd
  rw [Parser.parseProtoK_false] at this
  refine this.mono ?_ (fun _ _ h => h)
  rintro r l' ⟨⟨ts, h1, h2⟩, h3⟩
  exact ⟨⟨ts, h1, fun hc => h2 (hc.imp .inl id)⟩, h3⟩

theorem parse_sat {H : Halt → Prop} {input : Str} (hn : NulFree input) (fuel : Nat) (options : List ParseOpt)
    (hp : (∃ ts l1, Parser.Head ts ∧ Took (Lexer.new input (fileOf options)) ts l1 ∧
      PanicAt false (gramOf options) l1) → H .panic)
    (hd : H .fuel ∨ (NoGroup input ∧ input.length < fuel)) :
    Sat H (fun r l' => ∃ ts, ProtoToks (gramOf options) r ts ∧
        (NoGroup input ∨ ¬ FileHasEmpty r.protoBody → Took (Lexer.new input (fileOf options)) ts l') ∧
        Good l' ∧ (nextSt {} l').token = .eof)
      (BadN false (!(configOf options).permissive) (Lexer.new input (fileOf options)))
      (runProto fuel (configOf options) input) := by
  refine (parse_items hn fuel options hp hd).mono ?_ (fun _ _ h => h)
  rintro r l' ⟨⟨ts, h1, h2⟩, hg, he, _⟩
  refine ⟨ts, h1, fun hc => ?_, hg, he⟩
  obtain ⟨is, h3, _, h4⟩ := h2 hc
  exact h3 ▸ h4.took

theorem parse_ok {fuel : Nat} {input : Str} {options : List ParseOpt} {p : Proto}
    (h : parse fuel input options = .ok p) : ∃ l, runProto fuel (configOf options) input = .ok p l := by
  unfold parse at h
  generalize runProto fuel (configOf options) input = r at h
  cases r with
  | ok a l => simp only [Outcome.ofRes, Outcome.ok.injEq] at h; subst h; exact ⟨l, rfl⟩
  | err e l => simp [Outcome.ofRes] at h
  | halt k => cases k <;> simp [Outcome.ofRes] at h

theorem parse_err {fuel : Nat} {input : Str} {options : List ParseOpt} {e : Err}
    (h : parse fuel input options = .error e) : ∃ l, runProto fuel (configOf options) input = .err e l := by
  unfold parse at h
  generalize runProto fuel (configOf options) input = r at h
  cases r with
  | ok a l => simp [Outcome.ofRes] at h
  | err e l => simp only [Outcome.ofRes, Outcome.error.injEq] at h; subst h; exact ⟨l, rfl⟩
  | halt k => cases k <;> simp [Outcome.ofRes] at h

/-- On a well-formed input the run that `parse` returns from is calm. -/
theorem calm_run {input : Str} (hn : NulFree input) {options : List ParseOpt} (hw : WellFormed options input)
    {fuel : Nat} (hf : input.length < fuel) {p : Proto} (h : parse fuel input options = .ok p) :
    ∃ l, Parser.parseProtoK true (cfgOf fuel options) (Lexer.new input (fileOf options)) = .ok p l := by
  obtain ⟨l, h⟩ := parse_ok h
  obtain ⟨q, ts, hq, hs, hl⟩ := hw
  have hlen := laid_length hl
  simp only [words, List.length_map] at hlen
  have hgo := Parser.parseProto_go (calm := true) (H := fun k => k = .panic) (E := fun _ _ => False)
    (cfg := cfgOf fuel options) (l := Lexer.new input (fileOf options)) (G := grammarOf options) rfl rfl rfl hq hs
    (fun _ _ _ _ _ _ _ => rfl) (by show ts.length < fuel; omega) (ahead_here (good_new hn) hl)
  rcases Parser.parseProtoK_true (cfgOf fuel options) (Lexer.new input (fileOf options)) with e | e
  · rw [e] at hgo
    cases hgo
  · exact ⟨l, e.trans h⟩

/-- No failed group was recovered on the way to this tree: the parser that gives up where it would have to
(`Proofs/Calm.lean`) returns it, too. -/
def Calmly (options : List ParseOpt) (input : Str) (p : Proto) : Prop :=
  ∃ fuel l, Parser.parseProtoK true (cfgOf fuel options) (Lexer.new input (fileOf options)) = .ok p l

/-- No failed group was recovered.  This is so if the text does not contain `group`, or no message of the result
contains an empty statement, or the input is well-formed. -/
def Settled (options : List ParseOpt) (input : Str) (p : Proto) : Prop :=
  NoGroup input ∨ ¬ FileHasEmpty p.protoBody ∨ WellFormed options input ∨ Calmly options input p

/-- What `parse` returns are the tokens and comments of the input, if no failed group was recovered. -/
theorem parse_read {input : Str} (hn : NulFree input) {options : List ParseOpt} {fuel : Nat} {p : Proto}
    (h : parse fuel input options = .ok p) (hc : Settled options input p) :
    ∃ is l, ProtoToks (gramOf options) p (toks is) ∧
      ComProto (gramOf options) (configOf options).bodyIncludingComments p is ∧
      TookI (Lexer.new input (fileOf options)) is l ∧ Good l ∧ (nextSt {} l).token = .eof ∧ NoCom l := by
  have key : NoGroup input ∨ ¬ FileHasEmpty p.protoBody ∨ WellFormed options input ∨ Calmly options input p := hc
  rcases or_assoc.2 key with hc | hw
  · obtain ⟨l, h1⟩ := parse_ok h
    have := parse_items (H := fun _ => True) hn fuel options (fun _ => trivial) (.inl trivial)
    rw [h1] at this
    obtain ⟨⟨ts, h2, h3⟩, h4⟩ := this
    obtain ⟨is, rfl, h5, h6⟩ := h3 hc
    exact ⟨is, l, h2, h5, h6, h4⟩
  · obtain ⟨n, l, h1⟩ : Calmly options input p := by
      rcases hw with hw | hw
      · have hm : parse (fuel + input.length + 1) input options = .ok p := by
          rw [parse_mono (n := fuel) (by omega) (by rw [h]; nofun), h]
        exact ⟨_, calm_run hn hw (by omega) hm⟩
      · exact hw
    have := Parser.parseProto_sat (H := fun _ => True) (calm := true)
      (cfg := cfgOf n options) (good_new (f := fileOf options) hn) ⟨[], Inv.new _ _⟩
      (fun _ => trivial) (.inl trivial)
    rw [h1] at this
    obtain ⟨⟨ts, h2, h3⟩, h4⟩ := this
    obtain ⟨is, rfl, h5, h6⟩ := h3 (.inl (.inr rfl))
    exact ⟨is, l, h2, h5, h6, h4⟩

theorem parse_halt {fuel : Nat} {input : Str} {options : List ParseOpt}
    (h : parse fuel input options = .panic) : runProto fuel (configOf options) input = .halt .panic := by
  unfold parse at h
  generalize runProto fuel (configOf options) input = r at h
  cases r with
  | ok a l => simp [Outcome.ofRes] at h
  | err e l => simp [Outcome.ofRes] at h
  | halt k => cases k <;> simp [Outcome.ofRes] at h; rfl

theorem parse_more {fuel : Nat} {input : Str} {options : List ParseOpt}
    (h : parse fuel input options = .more) : runProto fuel (configOf options) input = .halt .fuel := by
  unfold parse at h
  generalize runProto fuel (configOf options) input = r at h
  cases r with
  | ok a l => simp [Outcome.ofRes] at h
  | err e l => simp [Outcome.ofRes] at h
  | halt k => cases k <;> simp [Outcome.ofRes] at h; rfl

/-! ## Concrete runs -/

/-- The tree is returned and has a property. -/
def accepts (f : Proto → Bool) : Outcome Proto → Bool
  | .ok p => f p
  | _ => false

theorem accepts_ok {f : Proto → Bool} {o : Outcome Proto} (h : accepts f o = true) :
    ∃ p, o = .ok p ∧ f p = true := by
  cases o with
  | ok p => exact ⟨p, rfl, h⟩
  | error e => cases h
  | panic => cases h
  | more => cases h

/-- The body of the last message of a file. -/
def lastMessage (p : Proto) : List Visitee :=
  match p.protoBody.getLast? with
  | some (.message x) => x.messageBody
  | _ => []

theorem lastMessage_in {p : Proto} {v : Visitee} (h : v ∈ lastMessage p) : In v p.protoBody := by
  have key : ∀ {vs : List Visitee}, v ∈ vs → In v vs := by
    intro vs h
    induction vs with
    | nil => simp at h
    | cons u vs ih =>
      rcases List.mem_cons.1 h with rfl | h
      · exact .here _
      · exact .there _ _ (ih h)
  have key2 : ∀ {vs : List Visitee} {x : Message}, Visitee.message x ∈ vs → v ∈ x.messageBody → In v vs := by
    intro vs x h hv
    induction vs with
    | nil => simp at h
    | cons u vs ih =>
      rcases List.mem_cons.1 h with rfl | h
      · exact .message _ _ (key hv)
      · exact .there _ _ (ih h)
  unfold lastMessage at h
  split at h
  · rename_i x hx
    exact key2 (List.mem_of_getLast? hx) h
  · simp at h

/-- A file with most kinds of statements. -/
def doc : Str := c!"syntax = \"proto3\"; // c\nimport public 'x'; package a.b;\n" ++
  c!"service S { rpc R (A) returns (stream .a.B) { option x.(y) = 1; }; }\n" ++
  c!"message M {\n  repeated a.B f = 1 [(x) = -.5, y = { a: 1 }]; // f\n  map<int32, string> m = 0x2;\n" ++
  c!"  optional group G = 3 { reserved 1, 2 to max; }\n  oneof o { int32 z = 4; } /* d */\n" ++
  c!"  reserved \"foo\", 'bar';\n  extensions 7 to 8;\n  enum E { X = -1; }\n}\n"

def docCheck (p : Proto) : Bool :=
  match p.protoBody with
  | [.importStmt _, .package _, .service _, .message m] =>
    match m.messageBody with
    | [.field x, .mapField y, .groupField z, .oneof _, .reserved u, .extensions _, .enum _] =>
      match z.messageBody with
      | [.reserved _] =>
        x.isRepeated && decide (x.type = c!"a.B") && decide (y.keyType = c!"int32") &&
          decide (z.groupName = c!"G") && decide (u.fieldNames = [c!"\"foo\"", c!"'bar'"]) &&
          decide (x.info.pos = { offset := 139, line := 5, column := 3 })
      | _ => false
    | _ => false
  | _ => false

theorem doc_nulFree : NulFree doc := by unfold NulFree; decide +kernel

theorem doc_accepted : accepts docCheck (parse 300 doc) = true := by decide +kernel

/-- A tree with a field, a map field, a group, a oneof, reserved names, extensions and an enum: the
theorems below apply to it. -/
theorem doc_tree : ∃ p, parse 300 doc = .ok p ∧ ¬ FileHasEmpty p.protoBody ∧
    (∃ x, In (.field x) p.protoBody ∧ x.isRepeated = true) ∧
    (∃ x, In (.mapField x) p.protoBody) ∧ (∃ x, In (.groupField x) p.protoBody) ∧
    (∃ x, In (.reserved x) p.protoBody) ∧ (∃ x, In (.extensions x) p.protoBody) := by
  obtain ⟨p, h1, h2⟩ := accepts_ok doc_accepted
  refine ⟨p, h1, ?_⟩
  unfold docCheck at h2
  split at h2
  · rename_i a b c m hp
    split at h2
    · rename_i x y z o u e en hl
      split at h2
      · rename_i r hz
        have hm : ∀ v ∈ lastMessage p, In v p.protoBody := fun v => lastMessage_in
        have e1 : lastMessage p = m.messageBody := by simp [lastMessage, hp]
        rw [e1, hl] at hm
        simp only [Bool.and_eq_true] at h2
        refine ⟨?_, ⟨x, hm _ (by simp), h2.1.1.1.1.1⟩, ⟨y, hm _ (by simp)⟩, ⟨z, hm _ (by simp)⟩,
          ⟨u, hm _ (by simp)⟩, ⟨e, hm _ (by simp)⟩⟩
        rintro ⟨x, h3, h4⟩
        rw [hp] at h3
        simp at h3
        subst h3
        rw [hl] at h4
        have key : ∀ v : Visitee, (∀ x, v ≠ .emptyStatement x) → (∀ x, v ≠ .message x) →
            (∀ x, v ≠ .groupField x) → ¬ HasEmpty [v] := by
          intro v h1 h2 h3 h
          cases h with
          | here => exact h1 _ rfl
          | there _ _ h => exact hasEmpty_nil h
          | message => exact h2 _ rfl
          | group => exact h3 _ rfl
        rw [hasEmpty_cons, hasEmpty_cons (v := .mapField _), hasEmpty_cons (v := .groupField _),
          hasEmpty_cons (v := .oneof _), hasEmpty_cons (v := .reserved _), hasEmpty_cons (v := .extensions _),
          hasEmpty_group, hz] at h4
        simp [key] at h4
      · cases h2
    · cases h2
  · cases h2

/-! ## C19: termination -/

/-- C19, for inputs that do not contain the letters `group`: no call needs more loop iterations or
nesting levels than the input has runes.  Missing: inputs with groups. -/
theorem parse_terminates_partial {input : Str} (hn : NulFree input) (hg : NoGroup input)
    (options : List ParseOpt) {fuel : Nat} (hf : input.length < fuel) :
    parse fuel input options ≠ .more := by
  intro h
  have := parse_sat (H := fun k => k = .panic) hn fuel options (fun _ => rfl) (.inr ⟨hg, hf⟩)
  rw [parse_more h] at this
  simp [Sat] at this

/-- C19 speaks of inputs of any size and nesting; this one is parsed within its bound. -/
example : NulFree c!"message M { message N { int32 a = 1; } }" ∧
    NoGroup c!"message M { message N { int32 a = 1; } }" ∧
    accepts (fun _ => true) (parse 41 c!"message M { message N { int32 a = 1; } }") = true := by
  refine ⟨by unfold NulFree; decide, ?_, by decide +kernel⟩
  unfold NoGroup
  decide

/-! ## C20: panics -/

/-- A file up to a semicolon at the top level: `c` is a layout of an optional byte order mark, syntax
and edition, statements, and the semicolon. -/
def FileUpToSemicolon (G : Gram) (file after c : Str) (t : Tok) : Prop :=
  ∃ head vs us, Parser.Head head ∧ Spec.Body G .file vs us ∧ t.text = c!";" ∧
    Layout file [] after (head ++ us ++ [t]) c

/-- The parser panics and no group failed before: the parser that gives up where a group fails
(`Proofs/Calm.lean`) panics, too. -/
def PanicsCalmly (options : List ParseOpt) (input : Str) : Prop :=
  ∃ fuel, Parser.parseProtoK true (cfgOf fuel options) (Lexer.new input (fileOf options)) = .halt .panic

/-- C20: unless a group failed (in particular, for inputs without `group`) `Parse` panics only if at the top level a
semicolon that ends no statement is followed by a comment on the same line.  Missing: runs in which a group failed. -/
theorem panic_only_partial {input : Str} (hn : NulFree input)
    {options : List ParseOpt} {fuel : Nat} (h : parse fuel input options = .panic)
    (hg : NoGroup input ∨ PanicsCalmly options input) :
    ∃ c raw text rest t, input = c ++ (raw ++ rest) ∧
      FileUpToSemicolon (gramOf options) (fileOf options) (raw ++ rest) c t ∧
      Spec.Comment rest raw text ∧ t.pos.line = (posAt (fileOf options) c).line := by
  obtain ⟨ts, l1, h1, vs, us, t, l2, x, l3, h3, h4, h8, h6, h7⟩ : ∃ ts l1, Parser.Head ts ∧
      ∃ vs us t l2 x l3, Spec.Body (gramOf options) .file vs us ∧ t.text = c!";" ∧
        Took (Lexer.new input (fileOf options)) (ts ++ (us ++ [t])) l2 ∧
        Parser.CommentsRead l2 [x] l3 ∧ t.pos.line = x.info.pos.line := by
    rcases hg with hg | ⟨n, hr⟩
    · have := parse_sat (H := fun k => k = .fuel ∨ (k = .panic ∧ ∃ ts l1, Parser.Head ts ∧
          Took (Lexer.new input (fileOf options)) ts l1 ∧ PanicAt false (gramOf options) l1)) hn fuel options
        (fun h => .inr ⟨rfl, h⟩) (.inl (.inl rfl))
      rw [parse_halt h] at this
      obtain h | ⟨_, ts, l1, h1, h2, vs, us, t, l2, x, l3, h3, h4, h5, h6, h7⟩ := this
      · cases h
      exact ⟨ts, l1, h1, vs, us, t, l2, x, l3, h3, h4, h2.trans (h5 (.inl (.inl (hg.suffix h2.suffix)))), h6, h7⟩
    · have := Parser.parseProto_sat (H := fun k => k = .fuel ∨ (k = .panic ∧ ∃ ts l1, Parser.Head ts ∧
          Took (Lexer.new input (fileOf options)) ts l1 ∧ PanicAt true (gramOf options) l1)) (calm := true)
        (cfg := cfgOf n options) (good_new (f := fileOf options) hn) ⟨[], Inv.new _ _⟩
        (fun h => .inr ⟨rfl, h⟩) (.inl (.inl rfl))
      rw [hr] at this
      obtain h | ⟨_, ts, l1, h1, h2, vs, us, t, l2, x, l3, h3, h4, h5, h6, h7⟩ := this
      · cases h
      exact ⟨ts, l1, h1, vs, us, t, l2, x, l3, h3, h4, h2.trans (h5 (.inl (.inr rfl))), h6, h7⟩
  obtain ⟨g, gs, i, hp, hgap, hx, _⟩ := h6
  -- the first comment of the gap
  have key : ∀ {com : Bool} {rest g : Str} {gs : List (Str × Str)}, Gap com rest g gs → ∀ q, [q] = gs →
      ∃ raw text g', g = q.1 ++ (raw ++ g') ∧ (∃ cs, Gap com (raw ++ (g' ++ rest)) q.1 cs) ∧
        Spec.Comment (g' ++ rest) raw text := by
    intro com rest g gs hgap
    induction hgap with
    | nil => intro q hq; simp at hq
    | space c g cs hc _ ih =>
      intro q hq
      cases cs with
      | nil => simp at hq
      | cons a cs =>
        simp only [List.map_cons, List.cons.injEq, List.nil_eq, List.map_eq_nil_iff] at hq
        obtain ⟨rfl, rfl⟩ := hq
        obtain ⟨raw, text, g', rfl, ⟨cs, hs⟩, hc'⟩ := ih a rfl
        exact ⟨raw, text, g', by simp, ⟨_, .space c _ _ hc hs⟩, hc'⟩
    | comment raw text g cs hm hc _ ih =>
      intro q hq
      simp only [List.cons.injEq, List.nil_eq, List.map_eq_nil_iff] at hq
      obtain ⟨rfl, rfl⟩ := hq
      exact ⟨raw, text, g, by simp, ⟨_, .nil⟩, hc⟩
  obtain ⟨q, hq⟩ : ∃ q, [q] = gs := by
    match gs, hx with
    | [q], _ => exact ⟨q, rfl⟩
  obtain ⟨raw, text, g', rfl, ⟨cs, hs⟩, hc⟩ := key hgap q hq
  obtain ⟨_, ⟨c, h9, h10, h11, _⟩, _⟩ := h8
  have e : l2.scanner.inp = q.1 ++ (raw ++ (g' ++ l3.scanner.inp)) := by rw [i]; simp
  have e2 : input = (c ++ q.1) ++ (raw ++ (g' ++ l3.scanner.inp)) := by
    have : input = c ++ l2.scanner.inp := h9
    rw [this, e]; simp
  rw [e] at h11
  have h12 := lay_append (ts2 := []) h11 (.nil q.1 cs hs)
  simp only [List.append_nil] at h12
  refine ⟨c ++ q.1, raw, text, g' ++ l3.scanner.inp, t, e2,
    ⟨ts, vs, us, h1, h3, h4, lay_text (pre := []) (by rw [List.append_assoc]; exact h12)⟩, hc, ?_⟩
  have h13 : x.info.pos = posAt (fileOf options) (c ++ q.1) := by
    have h14 : x.info.pos = (l2.scanner.pos.advanceAll q.1).p := by
      subst hq
      simp only [List.map_cons, List.map_nil, List.cons.injEq, and_true] at hx
      rw [hx]
      rfl
    rw [h14, h10]
    have : (Lexer.new input (fileOf options)).scanner.pos = SPos.new (fileOf options) := rfl
    rw [this, ← SPos.advanceAll_append, SPos.advanceAll_new]
  rw [h7, h13]

def panics : Outcome Proto → Bool
  | .panic => true
  | _ => false

theorem panics_iff {o : Outcome Proto} : panics o = true ↔ o = .panic := by
  cases o <;> simp [panics]

/-- A calm panic. -/
theorem panics_calmly {fuel : Nat} {input : Str} {options : List ParseOpt}
    (h : (match Parser.parseProtoK true (cfgOf fuel options) (Lexer.new input (fileOf options)) with
      | .halt .panic => true
      | _ => false) = true) : PanicsCalmly options input := by
  split at h
  · exact ⟨fuel, by assumption⟩
  · cases h

/-- The condition of `panic_only_partial` for a text with groups and block comments. -/
example : NulFree c!"message M { optional group A = 1 { } };; /* c */" ∧
    ¬ NoGroup c!"message M { optional group A = 1 { } };; /* c */" ∧
    parse 40 c!"message M { optional group A = 1 { } };; /* c */" = .panic ∧
    PanicsCalmly [] c!"message M { optional group A = 1 { } };; /* c */" := by
  refine ⟨by unfold NulFree; decide, ?_, panics_iff.1 (by decide +kernel), panics_calmly (fuel := 40) (by decide +kernel)⟩
  unfold NoGroup
  decide

/-- C20 is violated: `Parse` panics on a semicolon with a comment behind it. -/
theorem panic_violation : parse 20 c!"syntax = 'proto2';; // c" = .panic ∧
    parse 40 c!"message M { message N { } } ; ; /* c */" = .panic := by
  refine ⟨panics_iff.1 ?_, panics_iff.1 ?_⟩ <;> decide +kernel

/-! ## C28: what is accepted is what the tree says -/

/-- Every tree that `Parse` returns is a tree of the grammar. -/
theorem parse_grammar {input : Str} (hn : NulFree input) {options : List ParseOpt} {fuel : Nat} {p : Proto}
    (h : parse fuel input options = .ok p) : ∃ ts, ProtoToks (gramOf options) p ts := by
  obtain ⟨l, h1⟩ := parse_ok h
  have := parse_sat (H := fun _ => True) hn fuel options (fun _ => trivial) (.inl trivial)
  rw [h1] at this
  obtain ⟨ts, h2, _⟩ := this
  exact ⟨ts, h2⟩

/-- C28: if `Parse` succeeds then the input is a layout of tokens that the returned tree stands for. -/
theorem parse_layout_partial {input : Str} (hn : NulFree input) {options : List ParseOpt} {fuel : Nat} {p : Proto}
    (h : parse fuel input options = .ok p) (hc : Settled options input p) :
    ∃ ts, ProtoToks (gramOf options) p ts ∧ Layout (fileOf options) [] [] ts input := by
  obtain ⟨is, l, h2, _, h3, _, h4, _⟩ := parse_read hn h hc
  exact ⟨_, h2, took_text h3.took h4⟩

/-- C28 applies to the sample, which contains a group but no empty statement. -/
example : ∃ p ts, parse 300 doc = .ok p ∧ ProtoToks ⟨true, true, true⟩ p ts ∧ Layout [] [] [] ts doc := by
  obtain ⟨p, h1, hc, _⟩ := doc_tree
  obtain ⟨ts, h3, h4⟩ := parse_layout_partial doc_nulFree h1 (.inr (.inl hc))
  exact ⟨p, ts, h1, h3, h4⟩

/-- A calm run. -/
theorem calmly_of {fuel : Nat} {input : Str} {options : List ParseOpt} {f : Proto → Bool}
    (h : accepts f (.ofRes (Parser.parseProtoK true (cfgOf fuel options) (Lexer.new input (fileOf options)))) = true) :
    ∃ p, parse fuel input options = .ok p ∧ f p = true ∧ Calmly options input p := by
  obtain ⟨p, h1, h2⟩ := accepts_ok h
  rcases Parser.parseProtoK_true (cfgOf fuel options) (Lexer.new input (fileOf options)) with e | e
  · rw [e] at h1; simp [Outcome.ofRes] at h1
  · cases hr : Parser.parseProtoK true (cfgOf fuel options) (Lexer.new input (fileOf options)) with
    | ok a l =>
      rw [hr] at h1
      simp only [Outcome.ofRes, Outcome.ok.injEq] at h1
      subst h1
      refine ⟨a, ?_, h2, fuel, l, hr⟩
      show Outcome.ofRes (Parser.parseProto (cfgOf fuel options) (Lexer.new input (fileOf options))) = _
      rw [← e, hr]
      rfl
    | err e l => rw [hr] at h1; simp [Outcome.ofRes] at h1
    | halt k => rw [hr] at h1; cases k <;> simp [Outcome.ofRes] at h1

/-- C28 applies to an input that is not well-formed (the modifier of the import, the beginning of a field), with a
group and with an empty statement in a message. -/
example : ∃ p ts, parse 300 c!"import x \"a\"; message M { group A = 1 { ; } repeated ; }" = .ok p ∧
    FileHasEmpty p.protoBody ∧ ProtoToks ⟨true, true, true⟩ p ts ∧
    Layout [] [] [] ts c!"import x \"a\"; message M { group A = 1 { ; } repeated ; }" := by
  obtain ⟨p, h1, h2, h3⟩ := calmly_of (fuel := 300) (options := []) (f := fun p => match p.protoBody with
      | [_, .message x] => match x.messageBody with
        | [.groupField _, .emptyStatement _] => true
        | _ => false
      | _ => false) (input := c!"import x \"a\"; message M { group A = 1 { ; } repeated ; }") (by decide +kernel)
  obtain ⟨ts, h4, h5⟩ := parse_layout_partial (by unfold NulFree; decide +kernel) h1 (.inr (.inr (.inr h3)))
  refine ⟨p, ts, h1, ?_, h4, h5⟩
  split at h2
  · rename_i a x e
    split at h2
    · rename_i g b e'
      refine ⟨x, by simp [e], ?_⟩
      rw [e']
      exact .there _ _ (.here _ _)
    · cases h2
  · cases h2

/-- C28 is violated after a failed group: of this input, everything from `/*` on is a comment up to
`*/` and then another one; the parser puts the first comment back twice and reads a field from it. -/
theorem group_text_violation :
    accepts (fun p => match lastMessage p with
      | [.emptyStatement _, .field x] => decide (x.fieldName = c!"hidden")
      | _ => false)
      (parse 100 c!"message M { optional group A = 1 { enum E { X /*\n; int32 hidden = 1; } // */ // x") = true := by
  decide +kernel

/-! ## C21: the whole input is consumed -/

/-- C21: when `Parse` succeeds, what the scanner has not read is white space and comments. -/
theorem parse_consumes {input : Str} (hn : NulFree input) {config : List ParseOpt} {fuel : Nat} {p : Proto}
    {l : Lexer} (h : runProto fuel (configOf config) input = .ok p l) :
    ∃ cs, Gap true [] l.scanner.inp cs := by
  have := parse_sat (H := fun _ => True) hn fuel config (fun _ => trivial) (.inl trivial)
  rw [h] at this
  obtain ⟨ts, _, _, hg, h4⟩ := this
  exact eof_gap hg h4

/-- C21 is violated by NULs: the text behind enough of them is ignored. -/
theorem nul_violation :
    accepts (fun p => decide (p.protoBody.length = 1))
      (parse 60 (c!"message M { }" ++ List.replicate 20 (Char.ofNat 0) ++ c!" not a proto file")) = true := by
  decide +kernel

/-! ## C22-C26: what holds of every node -/

theorem body_in {G : Gram} {v : Visitee} {vs : List Visitee} (hv : In v vs) :
    ∀ {k : Ctx} {ts : List Tok}, Spec.Body G k vs ts →
    ∃ k' a us b, ts = a ++ us ++ b ∧ Toks G k' v us := by
  induction hv with
  | here vs =>
    intro k ts h
    cases h with
    | cons _ _ us _ b h1 h2 => exact ⟨_, [], us, b, by simp, h1⟩
  | there u vs _ ih =>
    intro k ts h
    cases h with
    | cons _ _ us _ b h1 h2 =>
      obtain ⟨k', a, us', b', rfl, h3⟩ := ih h2
      exact ⟨k', us ++ a, us', b', by simp, h3⟩
  | message x vs _ ih =>
    intro k ts h
    cases h with
    | cons _ _ us _ b h1 h2 =>
      cases h1 with
      | message _ _ hd bs cl _ _ _ h1 =>
        obtain ⟨k', a, us', b', rfl, h3⟩ := ih h1
        exact ⟨k', hd ++ a, us', b' ++ cl ++ b, by simp, h3⟩
  | group x vs _ ih =>
    intro k ts h
    cases h with
    | cons _ _ us _ b h1 h2 =>
      cases h1 with
      | group _ _ _ _ hd bs cl _ _ _ _ _ _ h1 =>
        obtain ⟨k', a, us', b', rfl, h3⟩ := ih h1
        exact ⟨k', hd ++ a, us', b' ++ cl ++ b, by simp, h3⟩
  | enum x vs _ ih =>
    intro k ts h
    cases h with
    | cons _ _ us _ b h1 h2 =>
      cases h1 with
      | enum _ _ hd bs cl _ _ _ h1 =>
        obtain ⟨k', a, us', b', rfl, h3⟩ := ih h1
        exact ⟨k', hd ++ a, us', b' ++ cl ++ b, by simp, h3⟩
  | extend x vs _ ih =>
    intro k ts h
    cases h with
    | cons _ _ us _ b h1 h2 =>
      cases h1 with
      | extend _ _ _ hd bs cl _ _ _ h1 =>
        obtain ⟨k', a, us', b', rfl, h3⟩ := ih h1
        exact ⟨k', hd ++ a, us', b' ++ cl ++ b, by simp, h3⟩
  | service x vs _ ih =>
    intro k ts h
    cases h with
    | cons _ _ us _ b h1 h2 =>
      cases h1 with
      | service _ hd bs cl _ _ h1 =>
        obtain ⟨k', a, us', b', rfl, h3⟩ := ih h1
        exact ⟨k', hd ++ a, us', b' ++ cl ++ b, by simp, h3⟩

theorem node_toks {input : Str} (hn : NulFree input) {options : List ParseOpt} {fuel : Nat} {p : Proto}
    (h : parse fuel input options = .ok p) {v : Visitee} (hv : In v p.protoBody) :
    ∃ k us, Toks (gramOf options) k v us := by
  obtain ⟨ts, h1⟩ := parse_grammar hn h
  cases h1 with
  | mk bom ss es bs _ _ _ hb =>
    obtain ⟨k, _, us, _, _, h⟩ := body_in hv hb
    exact ⟨k, us, h⟩

theorem validRange_of {r : Range} {ws : List Str} (h : RangeToks r ws) : ValidRange r := by
  cases h with
  | one w h => exact ⟨h, .inl rfl⟩
  | to w e h h' => exact ⟨h, .inr h'⟩

theorem validRanges_of {rs : List Range} {ws : List Str} (h : RangesToks rs ws) : ∀ r ∈ rs, ValidRange r := by
  induction h with
  | one r ws h => intro r' hr; simp only [List.mem_singleton] at hr; subst hr; exact validRange_of h
  | more rs ws r ws' _ h ih =>
    intro r' hr
    simp only [List.mem_append, List.mem_singleton] at hr
    rcases hr with hr | rfl
    · exact ih r' hr
    · exact validRange_of h

theorem ranges_ne {rs : List Range} {ws : List Str} (h : RangesToks rs ws) : rs ≠ [] := by
  cases h <;> simp

theorem names_of {ns ws : List Str} (h : NamesToks ns ws) : ns ≠ [] ∧ ∀ n ∈ ns, StrLit n ∨ Word n := by
  induction h with
  | one w h => exact ⟨by simp, by simpa [ReservedName] using h⟩
  | comma ns ws w _ h ih => 
    refine ⟨by simp, fun n hn => ?_⟩
    simp only [List.mem_append, List.mem_singleton] at hn
    rcases hn with hn | rfl
    · exact ih.2 n hn
    · exact h
  | blank ns ws w _ h ih =>
    refine ⟨by simp, fun n hn => ?_⟩
    simp only [List.mem_append, List.mem_singleton] at hn
    rcases hn with hn | rfl
    · exact ih.2 n hn
    · exact h

theorem typeRef_of {s : Str} {ws : List Str} (h : TypeName s ws) : TypeRef s := by
  cases h with
  | scalar h => exact ⟨[s], .plain _ _ (.one _ (scalars_word _ h))⟩
  | named => exact ⟨_, by assumption⟩

theorem oneof_fields {G : Gram} {fs : List OneofField} {os : List OptionStmt} {ts : List Tok}
    (h : OneofItems G fs os ts) : ∀ f ∈ fs, ∃ us, OneofFieldToks G f us := by
  induction h with
  | lastField x ts h => intro f hf; simp only [List.mem_singleton] at hf; subst hf; exact ⟨_, h⟩
  | lastOption => intro f hf; simp at hf
  | field x ts fs os ts' h _ ih =>
    intro f hf
    simp only [List.mem_cons] at hf
    rcases hf with rfl | hf
    · exact ⟨_, h⟩
    · exact ih f hf
  | option x ts fs os ts' _ _ ih => exact ih
  | empty t fs os ts _ _ ih => exact ih

theorem toks_valid {G : Gram} {k : Ctx} {v : Visitee} {us : List Tok} (h : Toks G k v us) : ValidNode v := by
  cases h with
  | comment => trivial
  | empty => trivial
  | junk => trivial
  | nil => trivial
  | importStmt x ts h => exact h.1
  | package x ts h => obtain ⟨ws, h, _⟩ := h; exact ⟨ws, h⟩
  | option => trivial
  | message => assumption
  | group => exact ⟨by assumption, by assumption⟩
  | enum => assumption
  | extend => exact ⟨_, by assumption⟩
  | service => assumption
  | field =>
    have h := ‹FieldToks G _ us›
    obtain ⟨h1, h2, _, ws, _, _, h3, _⟩ := h
    exact ⟨h1, h2, typeRef_of h3⟩
  | enumField x ts h =>
    obtain ⟨h1, sg, w, _, h2, h3, h4, _⟩ := h
    refine ⟨h1, ?_⟩
    rcases h2 with rfl | rfl
    · exact .inl (by rw [h4]; simpa using h3)
    · exact .inr ⟨w, by rw [h4]; rfl, h3⟩
  | oneof x ts h =>
    obtain ⟨h1, _, _, _, _, h2, _⟩ := h
    refine ⟨h1, fun f hf => ?_⟩
    obtain ⟨_, k1, k2, ws, _, k3, _⟩ := oneof_fields h2 f hf
    exact ⟨k1, k2, typeRef_of k3⟩
  | mapField x ts h =>
    obtain ⟨_, h1, h2, ws, _, h3, _⟩ := h
    exact ⟨h1, h2, typeRef_of h3⟩
  | reserved =>
    have h := ‹ReservedToks G _ us›
    rcases h with ⟨ws, h1, h2, _⟩ | ⟨js, ws, h1, h2, _⟩
    · exact ⟨validRanges_of h1, by simp [h2]⟩
    · exact ⟨by simp [h2], (names_of h1).2⟩
  | extensions x ts h =>
    obtain ⟨_, _, _, _, _, h1, _⟩ := h
    exact validRanges_of h1
  | rpc x ts h =>
    obtain ⟨h1, _, _, _, _, _, _, ⟨_, h2, _⟩, _, ⟨_, h3, _⟩, _⟩ := h
    exact ⟨h1, ⟨_, h2⟩, ⟨_, h3⟩⟩

/-- C22: names and numbers are lexically valid in every node, at every depth. -/
theorem names_valid {input : Str} (hn : NulFree input) {options : List ParseOpt} {fuel : Nat} {p : Proto}
    (h : parse fuel input options = .ok p) {v : Visitee} (hv : In v p.protoBody) : ValidNode v := by
  obtain ⟨k, us, h1⟩ := node_toks hn h hv
  exact toks_valid h1

/-- C22: the syntax and the edition. -/
theorem head_valid {input : Str} (hn : NulFree input) {options : List ParseOpt} {fuel : Nat} {p : Proto}
    (h : parse fuel input options = .ok p) :
    (∀ s, p.syntax_ = some s → s.protobufVersion = c!"proto2" ∨ s.protobufVersion = c!"proto3") ∧
    (∀ e, p.edition = some e → IntLit e.edition) := by
  obtain ⟨ts, h1⟩ := parse_grammar hn h
  cases h1 with
  | mk bom ss es bs _ h1 h2 _ =>
    constructor
    · intro s hs
      rw [hs] at h1
      cases h1 with
      | some a ts h => exact h.1
    · intro s hs
      rw [hs] at h2
      cases h2 with
      | some a ts h => exact h.1

theorem atMostOne_of {a b c : Bool} {ls : List Str} (h : Labelled a b c ls) : AtMostOne a b c := by
  cases h <;> simp [AtMostOne]

/-- C23: at most one label on a field. -/
theorem field_label {input : Str} (hn : NulFree input) {options : List ParseOpt} {fuel : Nat} {p : Proto}
    (h : parse fuel input options = .ok p) {x : Field} (hv : In (.field x) p.protoBody) :
    AtMostOne x.isRepeated x.isRequired x.isOptional := by
  obtain ⟨k, us, h1⟩ := node_toks hn h hv
  cases h1 with
  | field =>
    obtain ⟨_, _, _, _, _, h3, _⟩ := ‹FieldToks _ _ us›
    exact atMostOne_of h3

/-- C23: at most one label on a group. -/
theorem group_label {input : Str} (hn : NulFree input) {options : List ParseOpt} {fuel : Nat} {p : Proto}
    (h : parse fuel input options = .ok p) {x : GroupField} (hv : In (.groupField x) p.protoBody) :
    AtMostOne x.isRepeated x.isRequired x.isOptional := by
  obtain ⟨k, us, h1⟩ := node_toks hn h hv
  cases h1 with
  | group => exact atMostOne_of (by assumption)

/-- C24: map keys have one of the twelve key types. -/
theorem map_key {input : Str} (hn : NulFree input) {options : List ParseOpt} {fuel : Nat} {p : Proto}
    (h : parse fuel input options = .ok p) {x : MapField} (hv : In (.mapField x) p.protoBody) :
    x.keyType ∈ [c!"int32", c!"int64", c!"uint32", c!"uint64", c!"sint32", c!"sint64", c!"fixed32",
      c!"fixed64", c!"sfixed32", c!"sfixed64", c!"bool", c!"string"] := by
  obtain ⟨k, us, h1⟩ := node_toks hn h hv
  cases h1 with
  | mapField _ ts h => exact h.1

/-- C25: group names are identifiers that start with an upper-case letter. -/
theorem group_name {input : Str} (hn : NulFree input) {options : List ParseOpt} {fuel : Nat} {p : Proto}
    (h : parse fuel input options = .ok p) {x : GroupField} (hv : In (.groupField x) p.protoBody) :
    Word x.groupName ∧ ∃ c w, x.groupName = c :: w ∧ c ∈ c!"ABCDEFGHIJKLMNOPQRSTUVWXYZ" := by
  obtain ⟨k, us, h1⟩ := node_toks hn h hv
  cases h1 with
  | group => exact ⟨by assumption, _, _, by assumption, by assumption⟩

/-- C26: a reserved statement has ranges or names, not both and not neither. -/
theorem reserved_exclusive {input : Str} (hn : NulFree input) {options : List ParseOpt} {fuel : Nat} {p : Proto}
    (h : parse fuel input options = .ok p) {x : Reserved} (hv : In (.reserved x) p.protoBody) :
    (x.ranges = [] ∧ x.fieldNames ≠ []) ∨ (x.ranges ≠ [] ∧ x.fieldNames = []) := by
  obtain ⟨k, us, h1⟩ := node_toks hn h hv
  cases h1 with
  | reserved _ _ ts _ h =>
    rcases h with ⟨ws, h1, h2, _⟩ | ⟨js, ws, h1, h2, _⟩
    · exact .inr ⟨ranges_ne h1, h2⟩
    · exact .inl ⟨h2, (names_of h1).1⟩

/-- C26: an extensions statement has a range. -/
theorem extensions_ranges {input : Str} (hn : NulFree input) {options : List ParseOpt} {fuel : Nat} {p : Proto}
    (h : parse fuel input options = .ok p) {x : Extensions} (hv : In (.extensions x) p.protoBody) :
    x.ranges ≠ [] := by
  obtain ⟨k, us, h1⟩ := node_toks hn h hv
  cases h1 with
  | extensions _ ts h =>
    obtain ⟨_, _, _, _, _, h1, _⟩ := h
    exact ranges_ne h1

/-- C22-C26 apply to the nodes of the sample. -/
example : ∃ p, parse 300 doc = .ok p ∧
    (∃ x, In (.field x) p.protoBody ∧ x.isRepeated = true ∧ x.isRequired = false) ∧
    (∃ x, In (.mapField x) p.protoBody ∧ x.keyType ∈ keyTypes) ∧
    (∃ x, In (.groupField x) p.protoBody ∧ Word x.groupName) ∧
    (∃ x, In (.reserved x) p.protoBody ∧ (x.ranges = [] ∨ x.fieldNames = [])) ∧
    (∃ x, In (.extensions x) p.protoBody ∧ x.ranges ≠ []) := by
  obtain ⟨p, h, _, ⟨x, h1, h2⟩, ⟨y, h3⟩, ⟨z, h4⟩, ⟨u, h5⟩, ⟨w, h6⟩⟩ := doc_tree
  refine ⟨p, h, ⟨x, h1, h2, ?_⟩, ⟨y, h3, map_key doc_nulFree h h3⟩, ⟨z, h4, (group_name doc_nulFree h h4).1⟩,
    ⟨u, h5, ?_⟩, ⟨w, h6, extensions_ranges doc_nulFree h h6⟩⟩
  · rcases (field_label doc_nulFree h h1).1 with h | h
    · rw [h2] at h; cases h
    · exact h
  · exact (reserved_exclusive doc_nulFree h h5).imp And.left And.right

/-! ## C29: positions delimit statements -/

theorem toks_spans {G : Gram} {k : Ctx} {v : Visitee} {us : List Tok} (h : Toks G k v us) {i : Meta}
    (hi : metaOf v = some i) : Spans us i := by
  cases h with
  | comment => simp [metaOf] at hi
  | empty => simp [metaOf] at hi
  | junk => simp [metaOf] at hi
  | nil => simp [metaOf] at hi
  | importStmt x ts h =>
    simp only [metaOf, Option.some.injEq] at hi; subst hi
    obtain ⟨_, _, _, _, h⟩ := h; exact h
  | package x ts h =>
    simp only [metaOf, Option.some.injEq] at hi; subst hi
    obtain ⟨_, _, _, h⟩ := h; exact h
  | option =>
    have h := ‹OptionToks G _ us›
    simp only [metaOf, Option.some.injEq] at hi; subst hi
    obtain ⟨_, _, _, _, _, h⟩ := h; exact h
  | message => simp only [metaOf, Option.some.injEq] at hi; subst hi; assumption
  | group => simp only [metaOf, Option.some.injEq] at hi; subst hi; assumption
  | enum => simp only [metaOf, Option.some.injEq] at hi; subst hi; assumption
  | extend => simp only [metaOf, Option.some.injEq] at hi; subst hi; assumption
  | service => simp only [metaOf, Option.some.injEq] at hi; subst hi; assumption
  | field =>
    have h := ‹FieldToks G _ us›
    simp only [metaOf, Option.some.injEq] at hi; subst hi
    obtain ⟨_, _, _, _, _, _, _, _, _, _, h⟩ := h; exact h
  | enumField x ts h =>
    simp only [metaOf, Option.some.injEq] at hi; subst hi
    obtain ⟨_, _, _, _, _, _, _, _, _, h⟩ := h; exact h
  | oneof x ts h =>
    simp only [metaOf, Option.some.injEq] at hi; subst hi
    obtain ⟨_, _, _, _, _, _, _, _, h⟩ := h; exact h
  | mapField x ts h =>
    simp only [metaOf, Option.some.injEq] at hi; subst hi
    obtain ⟨_, _, _, _, _, _, _, _, h⟩ := h; exact h
  | reserved =>
    have h := ‹ReservedToks G _ us›
    simp only [metaOf, Option.some.injEq] at hi; subst hi
    rcases h with ⟨_, _, _, _, h⟩ | ⟨_, _, _, _, _, _, h⟩ <;> exact h
  | extensions x ts h =>
    simp only [metaOf, Option.some.injEq] at hi; subst hi
    obtain ⟨_, _, _, _, _, _, _, _, _, h⟩ := h; exact h
  | rpc x ts h =>
    simp only [metaOf, Option.some.injEq] at hi; subst hi
    obtain ⟨_, _, _, _, _, _, _, _, _, _, _, _, h⟩ := h; exact h

/-- C29: the tokens of every statement, at every depth, are consecutive tokens of the file, and the
`Meta` of the statement gives the positions of the first and of the last of them. -/
theorem meta_delimits_partial {input : Str} (hn : NulFree input) {options : List ParseOpt} {fuel : Nat} {p : Proto}
    (h : parse fuel input options = .ok p) (hc : Settled options input p) :
    ∃ ts, Layout (fileOf options) [] [] ts input ∧ ∀ v i, In v p.protoBody → metaOf v = some i →
      ∃ a us b k, ts = a ++ us ++ b ∧ Toks (gramOf options) k v us ∧ Spans us i := by
  obtain ⟨ts, h1, h2⟩ := parse_layout_partial hn h hc
  refine ⟨ts, h2, fun v i hv hi => ?_⟩
  cases h1 with
  | mk bom ss es bs _ _ _ hb =>
    obtain ⟨k, a, us, b, rfl, h3⟩ := body_in hv hb
    exact ⟨bom ++ ss ++ es ++ a, us, b, k, by simp, h3, toks_spans h3 hi⟩

/-! ## C50: error positions -/

theorem inText_posIn {f input : Str} {p : Position} (h : InText (Lexer.new input f) p) : PosIn f input p := by
  obtain ⟨c, r, h1, h2⟩ := h
  refine ⟨c, r, h1, ?_⟩
  rw [h2]
  exact SPos.advanceAll_new f c

theorem errAt_all {f input : Str} {e : Err} (h : ErrAt false (Lexer.new input f) e) :
    ∀ p ∈ positions e, PosIn f input p := by
  induction h with
  | single p s fd h =>
    intro q hq
    simp only [positions, List.mem_singleton] at hq
    subst hq
    exact inText_posIn h
  | pair a b _ _ iha ihb =>
    intro q hq
    simp only [positions, List.mem_append] at hq
    exact hq.elim (iha q) (ihb q)
  | first a b h => simp at h

theorem errAt_lead {f input : Str} {sm : Bool} {e : Err} (h : ErrAt sm (Lexer.new input f) e) :
    PosIn f input (leadPos e) := by
  induction h with
  | single p s fd h => exact inText_posIn h
  | pair a b _ _ iha _ => exact iha
  | first a b _ _ iha => exact iha

/-- The parser fails with this error and no group failed before: the parser that gives up where a group fails
(`Proofs/Calm.lean`) returns the error, too. -/
def FailsCalmly (options : List ParseOpt) (input : Str) (e : Err) : Prop :=
  ∃ fuel l, Parser.parseProtoK true (cfgOf fuel options) (Lexer.new input (fileOf options)) = .err e l

/-- No group failed.  This is so if the text does not contain `group`. -/
def SettledErr (options : List ParseOpt) (input : Str) (e : Err) : Prop :=
  NoGroup input ∨ FailsCalmly options input e

/-- An error of a run in which no group failed. -/
theorem parse_errAt {input : Str} (hn : NulFree input) {options : List ParseOpt} {fuel : Nat} {e : Err}
    (h : parse fuel input options = .error e) (hc : SettledErr options input e) :
    ErrAt (!(configOf options).permissive) (Lexer.new input (fileOf options)) e := by
  rcases hc with hg | ⟨n, l, h1⟩
  · obtain ⟨l, h1⟩ := parse_err h
    have := parse_sat (H := fun _ => True) hn fuel options (fun _ => trivial) (.inl trivial)
    rw [h1] at this
    exact this.err (.inl hg)
  · have := Parser.parseProto_sat (H := fun _ => True) (calm := true)
      (cfg := cfgOf n options) (good_new (f := fileOf options) hn) ⟨[], Inv.new _ _⟩
      (fun _ => trivial) (.inl trivial)
    rw [h1] at this
    exact this.err (.inr rfl)

/-- C50, in permissive mode: every position in an error is a position of the input.  Missing: runs in which a
group failed. -/
theorem error_positions_partial {input : Str} (hn : NulFree input)
    {options : List ParseOpt} (hp : (configOf options).permissive = true) {fuel : Nat} {e : Err}
    (h : parse fuel input options = .error e) (hc : SettledErr options input e) :
    ∀ p ∈ positions e, PosIn (fileOf options) input p := by
  have := parse_errAt hn h hc
  rw [hp] at this
  exact errAt_all this

/-- C50, in both modes: the leading position of an error is a position of the input.  Missing: runs in which a
group failed. -/
theorem error_position_partial {input : Str} (hn : NulFree input)
    {options : List ParseOpt} {fuel : Nat} {e : Err}
    (h : parse fuel input options = .error e) (hc : SettledErr options input e) :
    PosIn (fileOf options) input (leadPos e) := errAt_lead (parse_errAt hn h hc)

/-- A calm failure. -/
theorem fails_calmly {fuel : Nat} {input : Str} {options : List ParseOpt} {f : Err → Bool}
    (h : (match Parser.parseProtoK true (cfgOf fuel options) (Lexer.new input (fileOf options)) with
      | .err e _ => f e
      | _ => false) = true) :
    ∃ e, parse fuel input options = .error e ∧ f e = true ∧ FailsCalmly options input e := by
  split at h
  · rename_i e l hr
    rcases Parser.parseProtoK_true (cfgOf fuel options) (Lexer.new input (fileOf options)) with e' | e'
    · rw [hr] at e'; cases e'
    · refine ⟨e, ?_, h, fuel, l, hr⟩
      show Outcome.ofRes (Parser.parseProto (cfgOf fuel options) (Lexer.new input (fileOf options))) = _
      rw [← e', hr]
      rfl
  · cases h

/-- The positions of an error return. -/
def errPositions : Outcome Proto → List Position
  | .error e => positions e
  | _ => []

/-- C50 on an error that has two positions, both in the text. -/
example : NulFree c!"message M {\n int32 a = b;" ∧
    errPositions (parse 30 c!"message M {\n int32 a = b;") =
      [{ offset := 23, line := 2, column := 12 }, { offset := 22, line := 2, column := 11 }] ∧
    posAt [] c!"message M {\n int32 a = " = { offset := 23, line := 2, column := 12 } := by
  refine ⟨by unfold NulFree; decide, by decide +kernel, by decide⟩

/-- C50 on an error behind a group. -/
example : ∃ e, parse 60 c!"message M { group G = 1 { } int32 a = b;" = .error e ∧
    positions e = [posAt [] c!"message M { group G = 1 { } int32 a = ", posAt [] c!"message M { group G = 1 { } int32 a ="] ∧
    FailsCalmly [] c!"message M { group G = 1 { } int32 a = b;" e := by
  obtain ⟨e, h1, h2, h3⟩ := fails_calmly (fuel := 60) (options := [])
    (input := c!"message M { group G = 1 { } int32 a = b;") (f := fun e => decide (positions e =
      [posAt [] c!"message M { group G = 1 { } int32 a = ", posAt [] c!"message M { group G = 1 { } int32 a ="]))
    (by decide +kernel)
  exact ⟨e, h1, of_decide_eq_true h2, h3⟩

/-- C50 is violated in strict mode: a second position is before the start of the text. -/
theorem error_position_violation :
    errPositions (parse 60 c!"message M{M M=1[x=                         {" [withPermissive false]) =
      [{ offset := 18, line := 1, column := 19 }, { offset := -8, line := 1, column := -7 }] := by
  decide +kernel

/-- C50 is violated after failed groups, in permissive mode too: each enclosing group doubles the
distance. -/
theorem error_position_group_violation :
    errPositions (parse 200 (c!"message M{optional group A=1{optional group A=1{optional group A=1{enum E{X" ++
        List.replicate 40 ' ')) =
      [{ offset := 115, line := 1, column := 116 }, { offset := 75, line := 1, column := 76 },
       { offset := 35, line := 1, column := 36 }, { offset := -45, line := 1, column := -44 },
       { offset := -205, line := 1, column := -204 }] := by
  decide +kernel

end Verif.Props
