import Verif.Props.Comments
import Verif.Props.Complete
import Verif.Proofs.Mark
import Verif.Props.Terminate

/-!
# The statement parsers (C28, C29, C73, C74)

`parser.Parser` exports one method per kind of statement.  The theorems are about every sequence of calls of
these methods on a parser that was made for an input without NUL.
-/

set_option backward.isDefEq.respectTransparency false
set_option backward.dsimp.instances true

namespace Verif.Props
open Scanner Spec Lexer Parser

/-- A call of an exported method of `parser.Parser` (but `ParseProto`, for which see `Props/Parse.lean`). -/
inductive Request where
  | syntax_ | edition | importStmt | package | option | message | enum | service | extend | field | mapField
  | groupField | oneof | reserved | extensions | declaration | comments | isEOF
  | inline (v : Visitee)

/-- What a call returns. -/
inductive Ret where
  | syntax_ (x : Option Syntax)
  | edition (x : Option Edition)
  | declaration (x : Declaration)
  | comments (cs : List Verif.Comment)
  | flag (b : Bool)
  | node (v : Visitee)

/-- The call, as modelled in `Model/Parser.lean`. -/
def Request.run (cfg : Cfg) : Request → P Ret
  | .syntax_ => do return .syntax_ (← parseSyntax)
  | .edition => do return .edition (← parseEdition)
  | .importStmt => do return .node (.importStmt (← parseImport))
  | .package => do return .node (.package (← parsePackage))
  | .option => do return .node (.option (← parseOption cfg))
  | .message => do return .node (.message (← parseMessage cfg))
  | .enum => do return .node (.enum (← parseEnum cfg))
  | .service => do return .node (.service (← parseService cfg))
  | .extend => do return .node (.extend (← parseExtend cfg))
  | .field => do return .node (.field (← parseField cfg))
  | .mapField => do return .node (.mapField (← parseMapField cfg))
  | .groupField => do return .node (.groupField (← parseGroupField cfg))
  | .oneof => do return .node (.oneof (← parseOneof cfg))
  | .reserved => do return .node (.reserved (← parseReserved))
  | .extensions => do return .node (.extensions (← parseExtensions))
  | .declaration => do return .declaration (← parseDeclaration)
  | .comments => do return .comments (← parseComments)
  | .isEOF => do return .flag (← Parser.isEOF)
  | .inline v => do return .node (← maybeScanInlineComment v)

/-- `Reads G b after call r is`: the call returns `r` for the tokens and comments `is` before the text `after`.
A statement is one of the grammar and has the comments inside of it (those of a statement that begins with a
comment are not looked at: `ParseComments` should have been called before). -/
inductive Reads (G : Gram) (b : Bool) (after : Str) : Request → Ret → List Item → Prop
  | syntax_ (x : Option Syntax) (is : List Item) : Optional SyntaxToks x (toks is) →
      Reads G b after .syntax_ (.syntax_ x) is
  | edition (x : Option Edition) (is : List Item) : Optional EditionToks x (toks is) →
      Reads G b after .edition (.edition x) is
  | importStmt (x : Import) (is : List Item) : ImportToks G x (toks is) →
      Reads G b after .importStmt (.node (.importStmt x)) is
  | package (x : Package) (is : List Item) : PackageToks x (toks is) →
      Reads G b after .package (.node (.package x)) is
  | option (x : OptionStmt) (is : List Item) : OptionToks G x (toks is) →
      Reads G b after .option (.node (.option x)) is
  | message (x : Message) (is : List Item) : Toks G .message (.message x) (toks is) →
      (Starts is → Com G b (.message x) is) → Reads G b after .message (.node (.message x)) is
  | enum (x : Enum) (is : List Item) : Toks G .message (.enum x) (toks is) →
      (Starts is → Com G b (.enum x) is) → Reads G b after .enum (.node (.enum x)) is
  | service (x : Service) (is : List Item) : Toks G .file (.service x) (toks is) →
      (Starts is → Com G b (.service x) is) → Reads G b after .service (.node (.service x)) is
  | extend (x : Extend) (is : List Item) : Toks G .message (.extend x) (toks is) →
      (Starts is → Com G b (.extend x) is) → Reads G b after .extend (.node (.extend x)) is
  | field (x : Field) (is : List Item) : FieldToks G x (toks is) → Reads G b after .field (.node (.field x)) is
  | mapField (x : MapField) (is : List Item) : MapFieldToks G x (toks is) →
      Reads G b after .mapField (.node (.mapField x)) is
  | groupField (x : GroupField) (is : List Item) : Toks G .message (.groupField x) (toks is) →
      (Starts is → Com G b (.groupField x) is) → Reads G b after .groupField (.node (.groupField x)) is
  | oneof (x : Oneof) (is : List Item) : OneofToks G x (toks is) → (Starts is → Com G b (.oneof x) is) →
      Reads G b after .oneof (.node (.oneof x)) is
  | reserved (x : Reserved) (is : List Item) : ReservedToks G x (toks is) →
      Reads G b after .reserved (.node (.reserved x)) is
  | extensions (x : Extensions) (is : List Item) : ExtensionsToks x (toks is) →
      (Starts is → Com G b (.extensions x) is) → Reads G b after .extensions (.node (.extensions x)) is
  | declaration (x : Declaration) (is : List Item) : ComDeclaration x is →
      Reads G b after .declaration (.declaration x) is
  /-- All comments up to the next token. -/
  | comments (cs : List Verif.Comment) :
      (∀ raw text rest g, after = g ++ (raw ++ rest) → Gap false (raw ++ rest) g [] → ¬ Spec.Comment rest raw text) →
      Reads G b after .comments (.comments cs) (coms cs)
  /-- There is no token left. -/
  | isEOF (e : Bool) : (e = true ↔ ∃ cs, Gap true [] after cs) → Reads G b after .isEOF (.flag e) []
  /-- The comment that follows on the line becomes the inline comment of the node. -/
  | inline (v : Visitee) (o : Option Verif.Comment) : Reads G b after (.inline v) (.node (v.inl o)) (opt o)

/-- The history `h` of calls and results tells of the text: it is consumed call by call.  `before` is what was
consumed before. -/
inductive Tells (G : Gram) (b : Bool) (file : Str) : Str → Str → List (Request × Ret) → Prop
  | nil (before text : Str) : Tells G b file before text []
  | cons (before c rest : Str) (call : Request) (r : Ret) (is : List Item) (h : List (Request × Ret)) :
      Stream file before rest is c → Reads G b rest call r is → Tells G b file (before ++ c) rest h →
      Tells G b file before (c ++ rest) ((call, r) :: h)

/-- The call with the parser that gives up where it would have to recover from a failed group
(`Proofs/Calm.lean`), if `calm`. -/
def Request.runK (calm : Bool) (cfg : Cfg) : Request → P Ret
  | .message => do return .node (.message (← parseMessageWith (messageBodyK calm cfg cfg.fuel)))
  | .groupField => do return .node (.groupField (← parseGroupFieldWith (messageBodyK calm cfg cfg.fuel)))
  | call => call.run cfg

/-- The text does not contain `group`, or the message has no empty statement. -/
def Still (input : Str) : Ret → Prop
  | .node (.message x) => NoGroup input ∨ ¬ HasEmpty x.messageBody
  | .node (.groupField x) => NoGroup input ∨ ¬ HasEmpty x.messageBody
  | _ => True

/-- The calls in `h`, one after the other, return the results in `h`, and none had to recover from a failed
group: either it returns the same without recovering, or there cannot have been such a group. -/
inductive Ran (cfg : Cfg) (input : Str) : Lexer → List (Request × Ret) → Lexer → Prop
  | nil (l : Lexer) : Ran cfg input l [] l
  | cons (l l1 l2 : Lexer) (call : Request) (r : Ret) (h : List (Request × Ret)) : call.run cfg l = .ok r l1 →
      (Still input r ∨ call.runK true cfg l = .ok r l1) →
      Ran cfg input l1 h l2 → Ran cfg input l ((call, r) :: h) l2

/-- The calls that may have to recover from a failed group. -/
def Grouped : Request → Prop
  | .message | .groupField => True
  | _ => False

/-! ## One call -/

theorem solid_nocom {x : Str} (hs : Solid x) : (lex .commentMode x).token ≠ .comment := by
  obtain ⟨g, cs, t, rfl, h2, _, h⟩ := lex_cases .commentMode x
  have hg := solid_gap hs h2
  subst hg
  simp only [List.nil_append] at h hs ⊢
  rcases h with ⟨h1, h⟩ | ⟨r, e, rfl, h1, h⟩ | ⟨r, rfl, _, h1, h⟩
  · rw [h]
    exact tokenAt_not_comment _
  · rw [h]; simp [LexOut.withGap]
  · obtain ⟨y, h3, h4⟩ := commentPiece_sound h1
    exact absurd h4 (hs.2 _ _ _ h3)

theorem flow_tok_nocom {l : Lexer} {rest c : Str} {t : Tok} {is : List Item}
    (hi : l.scanner.inp = c ++ rest) (h : Flow l.scanner.pos rest (.tok t :: is) c) : NoCom l := by
  have key : ∀ {p : SPos} {js : List Item} {rest c : Str}, Flow p rest js c → js = .tok t :: is →
      (lex .commentMode (c ++ rest)).token ≠ .comment := by
    intro p js rest c h hi
    induction h with
    | nil => simp at hi
    | space ch js c hc _ ih =>
      rename_i rest _
      have := lex_gap (m := .commentMode) (rest := c ++ rest) (g := [ch]) (cs := []) (
        Gap.space (com := false) ch [] [] hc .nil)
      simp only [List.cons_append, List.nil_append] at this ⊢
      rw [this]
      exact ih hi
    | com => simp at hi
    | tok w js c hw hs hx _ _ => rw [List.append_assoc]; exact solid_nocom hs
  unfold NoCom
  simp only [nextSt]
  rw [hi]
  exact key h rfl

theorem starts_nocom {l l' : Lexer} {is : List Item} (h : TookI l is l') (hs : Starts is) : NoCom l := by
  obtain ⟨t, js, rfl⟩ := hs
  obtain ⟨_, c, h1, _, h2⟩ := h
  exact flow_tok_nocom h1 h2

/-- What is known of a call in the state `l`. -/
def CallSat (calm : Bool) (H : Halt → Prop) (cfg : Cfg) (call : Request) (l : Lexer) : Prop :=
  Sat H (fun r l' => Good l' ∧ (Still l.scanner.inp r ∨ calm = true → ∃ is,
      Reads cfg.gram cfg.bodyIncludingComments l'.scanner.inp call r is ∧ TookI l is l'))
    (fun e _ => (NoGroup l.scanner.inp ∨ calm = true) ∨ ¬ Grouped call → ErrAt (!cfg.permissive) l e)
    (call.runK calm cfg l)

theorem runK_false (cfg : Cfg) (call : Request) : call.runK false cfg = call.run cfg := by
  cases call <;> simp only [Request.runK, Request.run, messageBodyK_false, parseMessage, parseGroupField]

theorem runK_true (cfg : Cfg) (call : Request) : Below (call.runK true cfg) (call.run cfg) := by
  cases call <;> first | exact Below.refl _ | skip
  · exact (below_message (below_body cfg cfg.fuel)).first
  · exact (below_group (below_body cfg cfg.fuel)).first

theorem seg_com {G : Gram} {b : Bool} {l l' : Lexer} {v : Visitee} {ts : List Tok} (hr : Recd l)
    (h : SegOut G b l v ts l') : ∃ is, toks is = ts ∧ TookI l is l' ∧ (Starts is → Com G b v is) := by
  obtain ⟨seg, t, h1, h2, _, _, h3⟩ := h
  exact ⟨seg, h1, h2, fun hs => h3 hr (starts_nocom h2 hs)⟩

theorem clean_of {calm : Bool} {l : Lexer} {vs : List Visitee}
    (h : (NoGroup l.scanner.inp ∨ ¬ HasEmpty vs) ∨ calm = true) : Clean calm l vs := by
  rcases h with (h | h) | h
  · exact .inl (.inl h)
  · exact .inr h
  · exact .inl (.inr h)

theorem call_plain {calm : Bool} {H : Halt → Prop} {cfg : Cfg} {call : Request} {l : Lexer} {α : Type} {m : P α} {g : α → Ret}
    {R : α → List Tok → Prop} {E : Err → Lexer → Prop}
    (hm : call.runK calm cfg = (do return g (← m))) (hs : Sat H (fun r l' => ∃ ts, R r ts ∧ Took l ts l') E (m l))
    (hR : ∀ a is after, R a (toks is) → Reads cfg.gram cfg.bodyIncludingComments after call (g a) is)
    (hE : ∀ e l', E e l' → ErrAt (!cfg.permissive) l e) : CallSat calm H cfg call l := by
  unfold CallSat
  rw [hm]
  refine Sat.bind' hs (fun e l' h _ => hE e l' h) ?_
  rintro a l' ⟨ts, h1, h2⟩
  obtain ⟨is, h3, rfl⟩ := h2.items
  exact ⟨h2.good, fun _ => ⟨is, hR a is _ h1, h3⟩⟩

theorem call_sat (calm : Bool) {H : Halt → Prop} {cfg : Cfg} (call : Request) {l : Lexer} (hg : Good l) (hr : Recd l)
    (hp : (∃ v, call = .inline v ∧ (v = .nil ∨ ∃ c, v = .comment c)) → H .panic)
    (hd : Grouped call → H .fuel ∨ (NoGroup l.scanner.inp ∧ l.scanner.inp.length < cfg.fuel)) :
    CallSat calm H cfg call l := by
  cases call with
  | syntax_ => exact call_plain rfl (parseSyntax_sat hg) (fun _ _ _ h => .syntax_ _ _ h) (fun _ _ h => h.err)
  | edition => exact call_plain rfl (parseEdition_sat hg) (fun _ _ _ h => .edition _ _ h) (fun _ _ h => h.err)
  | importStmt => exact call_plain rfl (parseImport_sat rfl hg) (fun _ _ _ h => .importStmt _ _ h) (fun _ _ h => h.err)
  | package => exact call_plain rfl (parsePackage_sat hg) (fun _ _ _ h => .package _ _ h) (fun _ _ h => h.err)
  | option => exact call_plain rfl (parseOption_sat hg) (fun _ _ _ h => .option _ _ h) (fun _ _ h => h.err)
  | field => exact call_plain rfl (parseField_sat hg) (fun _ _ _ h => .field _ _ h) (fun _ _ h => h.err)
  | mapField => exact call_plain rfl (parseMapField_sat hg) (fun _ _ _ h => .mapField _ _ h) (fun _ _ h => h.err)
  | reserved => exact call_plain rfl (parseReserved_sat rfl hg) (fun _ _ _ h => .reserved _ _ h) (fun _ _ h => h.err)
  | message =>
    have hb : BodyOK calm H cfg cfg.fuel (messageBodyK calm cfg cfg.fuel) := messageBody_sat cfg.fuel
    refine Sat.bind' (parseMessageWith_sat hb (.inr rfl) hg
      ((hd trivial).imp id (fun h => ⟨h.1, h.2, by omega⟩))) (fun e l' h hn => h.err ?_) ?_
    · exact hn.resolve_right (fun h => h trivial)
    · rintro a l' ⟨h1, _, ts, h2, h3⟩
      refine ⟨h1, fun hs => ?_⟩
      obtain ⟨is, rfl, h4, h5⟩ := seg_com hr (h3 (clean_of hs) a.comments)
      exact ⟨is, .message _ _ (h2 a.comments) h5, h4⟩
  | groupField =>
    have hb : BodyOK calm H cfg cfg.fuel (messageBodyK calm cfg cfg.fuel) := messageBody_sat cfg.fuel
    refine Sat.bind' (parseGroupFieldWith_sat hb hg
      ((hd trivial).imp id (fun h => ⟨h.1, h.2, by omega⟩))) (fun e l' h hn => h.err ?_) ?_
    · exact hn.resolve_right (fun h => h trivial)
    · rintro a l' ⟨h1, _, ts, h2, h3⟩
      refine ⟨h1, fun hs => ?_⟩
      obtain ⟨is, rfl, h4, h5⟩ := seg_com hr (h3 (clean_of hs) a.comments)
      exact ⟨is, .groupField _ _ (h2 a.comments) h5, h4⟩
  | enum =>
    refine Sat.bind' (parseEnum_sat (.inr rfl) hg) (fun e l' h _ => h.err) ?_
    rintro a l' ⟨_, ts, h2, h3⟩
    obtain ⟨is, rfl, h4, h5⟩ := seg_com hr (h3 a.comments)
    exact ⟨h4.good, fun _ => ⟨is, .enum _ _ (h2 a.comments) h5, h4⟩⟩
  | service =>
    refine Sat.bind' (parseService_sat hg) (fun e l' h _ => h.err) ?_
    rintro a l' ⟨_, ts, h2, h3⟩
    obtain ⟨is, rfl, h4, h5⟩ := seg_com hr (h3 a.comments)
    exact ⟨h4.good, fun _ => ⟨is, .service _ _ (h2 a.comments) h5, h4⟩⟩
  | extend =>
    refine Sat.bind' (parseExtend_sat (.inr rfl) hg) (fun e l' h _ => h.err) ?_
    rintro a l' ⟨_, ts, h2, h3⟩
    obtain ⟨is, rfl, h4, h5⟩ := seg_com hr (h3 a.comments)
    exact ⟨h4.good, fun _ => ⟨is, .extend _ _ (h2 a.comments) h5, h4⟩⟩
  | oneof =>
    refine Sat.bind' (parseOneof_sat hg) (fun e l' h _ => h.err) ?_
    rintro a l' ⟨ts, h1, _, _, h3⟩
    obtain ⟨is, rfl, h4, h5⟩ := seg_com hr (h3 cfg.bodyIncludingComments a.comments)
    exact ⟨h4.good, fun _ => ⟨is, .oneof _ _ h1 h5, h4⟩⟩
  | extensions =>
    refine Sat.bind' (parseExtensions_sat (sm := !cfg.permissive) hg) (fun e l' h _ => h.err) ?_
    rintro a l' ⟨ts, h1, _, _, h3⟩
    obtain ⟨is, rfl, h4, h5⟩ := seg_com hr (h3 cfg.gram cfg.bodyIncludingComments a.comments)
    exact ⟨h4.good, fun _ => ⟨is, .extensions _ _ h1 h5, h4⟩⟩
  | declaration =>
    refine Sat.bind' (parseDeclaration_sat (sm := !cfg.permissive) hg) (fun e l' h _ => h.err) ?_
    rintro a l' ⟨is, h1, _, h2, _⟩
    exact ⟨h2.good, fun _ => ⟨is, .declaration _ _ h1, h2⟩⟩
  | comments =>
    refine Sat.bind' (E := fun _ _ => False) (parseComments_sat hg) (fun e l' h => h.elim) ?_
    rintro cs l' ⟨h1, h2, h3, h4⟩
    refine ⟨h2, fun _ => ⟨coms cs, .comments _ ?_, h1.tookI h2 h3⟩⟩
    rintro raw text rest g h5 h6 h7
    apply h4
    simp only [nextSt]
    rw [h5, lex_gap (m := .commentMode) h6, lex_comment h7]
  | isEOF =>
    refine sat_isEOF hg ?_
    refine ⟨good_putBack hg _, fun _ => ⟨[], .isEOF _ ?_, (back_putBack hg {}).tookI hg⟩⟩
    rw [decide_eq_true_iff]
    constructor
    · exact fun h => (eof_gap hg h : ∃ cs, Gap true [] l.scanner.inp cs)
    · rintro ⟨cs, h⟩
      have h : Gap true [] l.scanner.inp cs := h
      have := lex_gap (m := {}) (rest := []) (g := l.scanner.inp) (cs := cs) h
      simp only [nextSt]
      rw [List.append_nil] at this
      rw [this]
      rfl
  | inline v =>
    unfold CallSat
    show Sat _ _ _ ((maybeScanInlineComment v >>= fun r => pure (Ret.node r)) l)
    refine Sat.bind' (Q := fun r l' => ∃ o, r = v.inl o ∧ Inline l o l') (E := fun _ _ => False) ?_
      (fun e l' h => h.elim) ?_
    · unfold maybeScanInlineComment
      refine Sat.bind (parseInline_sat hg) (fun c l1 hi => ?_)
      cases c with
      | none => exact ⟨none, rfl, hi⟩
      | some c =>
        cases v with
        | nil => exact hp ⟨_, rfl, .inl rfl⟩
        | comment _ => exact hp ⟨_, rfl, .inr ⟨_, rfl⟩⟩
        | _ => exact ⟨some c, rfl, hi⟩
    · rintro r l' ⟨o, rfl, hi⟩
      exact ⟨hi.took.good, fun _ => ⟨opt o, .inline v o, hi.took⟩⟩

/-! ## Histories -/

theorem noGroup_suffix {c x : Str} (h : NoGroup (c ++ x)) : NoGroup x := by
  rintro ⟨a, b, e⟩
  exact h ⟨c ++ a, b, by rw [← e]; simp⟩

theorem still_suffix {c x : Str} {r : Ret} (h : Still (c ++ x) r) : Still x r := by
  unfold Still at h ⊢
  split <;> first | exact h.imp noGroup_suffix id | trivial

theorem ran_took {cfg : Cfg} {input : Str} {l l' : Lexer} {h : List (Request × Ret)} (hr : Ran cfg input l h l')
    (hg : Good l) (hi : Recd l) (hs : ∃ c, input = c ++ l.scanner.inp) :
    (∃ is, TookI l is l') ∧ Recd l' ∧ ∀ f before, l.scanner.pos = (SPos.new f).advanceAll before →
      Tells cfg.gram cfg.bodyIncludingComments f before l.scanner.inp h := by
  induction hr with
  | nil l => exact ⟨⟨[], .refl hg⟩, hi, fun f before _ => .nil _ _⟩
  | cons l l1 l2 call r h hc hq _ ih =>
    have : ∃ is, Reads cfg.gram cfg.bodyIncludingComments l1.scanner.inp call r is ∧ TookI l is l1 := by
      rcases hq with hq | hq
      · have := call_sat false (H := fun _ => True) (cfg := cfg) call hg hi (fun _ => trivial) (fun _ => .inl trivial)
        unfold CallSat at this
        rw [runK_false, hc] at this
        obtain ⟨d, hd⟩ := hs
        rw [hd] at hq
        exact this.2 (.inl (still_suffix hq))
      · have := call_sat true (H := fun _ => True) (cfg := cfg) call hg hi (fun _ => trivial) (fun _ => .inl trivial)
        unfold CallSat at this
        rw [hq] at this
        exact this.2 (.inr rfl)
    obtain ⟨is, h1, h2⟩ := this
    obtain ⟨ht, c, e1, e2, h3⟩ := h2
    have h2 : TookI l is l1 := ⟨ht, c, e1, e2, h3⟩
    obtain ⟨⟨js, h4⟩, h5, h6⟩ := ih h2.good (h2.recd hi) (by
      obtain ⟨d, hd⟩ := hs
      exact ⟨d ++ c, by rw [hd, e1]; simp⟩)
    refine ⟨⟨is ++ js, h2.trans h4⟩, h5, fun f before hb => ?_⟩
    rw [e1]
    rw [hb] at h3 e2
    refine .cons _ _ _ _ _ is _ (flow_stream h3) h1 (h6 f _ ?_)
    rw [e2, SPos.advanceAll_append]

/-- C73: whatever statement parsers are called on a parser, as long as they succeed they consume the text piece by
piece, and each returns what stands in its piece: the statement with all its tokens, Meta positions and inner
comments. -/
theorem calls_read {input file : Str} (hn : NulFree input) {cfg : Cfg} {h : List (Request × Ret)} {l : Lexer}
    (hr : Ran cfg input (Lexer.new input file) h l) :
    Tells cfg.gram cfg.bodyIncludingComments file [] input h :=
  (ran_took hr (good_new hn) ⟨[], Inv.new _ _⟩ ⟨[], rfl⟩).2.2 file [] rfl

/-- C74: behind such a history every call returns, unless it is that of a message or group parser and the text
contains both `group` and `/*`, or an inline comment is asked for the nil interface value or a comment. -/
theorem call_returns_partial {input file : Str} (hn : NulFree input) {cfg : Cfg} {h : List (Request × Ret)} {l : Lexer}
    (hr : Ran cfg input (Lexer.new input file) h l) (call : Request)
    (hv : ∀ v, call = .inline v → v ≠ .nil ∧ ∀ c, v ≠ .comment c)
    (hg : Grouped call → ¬ (c!"group" <:+: input ∧ c!"/*" <:+: input) ∧ input.length < cfg.fuel) :
    (∃ r l', call.run cfg l = .ok r l') ∨ ∃ e l', call.run cfg l = .err e l' := by
  obtain ⟨⟨is, ht⟩, hi, _⟩ := ran_took hr (good_new hn) ⟨[], Inv.new _ _⟩ ⟨[], rfl⟩
  obtain ⟨_, c, e1, _⟩ := id ht
  have e1 : input = c ++ l.scanner.inp := e1
  have hlen : Grouped call → l.scanner.inp.length < cfg.fuel := fun h => by
    have := (hg h).2
    rw [e1] at this
    simp only [List.length_append] at this
    omega
  have hp : ¬ ∃ v, call = .inline v ∧ (v = .nil ∨ ∃ c, v = .comment c) := by
    rintro ⟨v, h1, h2⟩
    obtain ⟨h3, h4⟩ := hv v h1
    rcases h2 with h2 | ⟨c, h2⟩
    · exact h3 h2
    · exact h4 c h2
  have hpan : call.run cfg l ≠ .halt .panic := fun h => by
    have := call_sat false (H := fun k => k = .fuel) (cfg := cfg) call ht.good hi (fun h => absurd h hp)
      (fun _ => .inl rfl)
    unfold CallSat at this
    rw [runK_false, h] at this
    exact Halt.noConfusion this
  have hfuel : call.run cfg l ≠ .halt .fuel := fun h => by
    by_cases hb : Grouped call ∧ NoBlock input
    · have hb' : NoBlock l.scanner.inp := hb.2.suffix ⟨c, e1.symm⟩
      have := hlen hb.1
      cases call with
      | message =>
        have := Sat.bind (f := fun x => (pure (Ret.node (.message x)) : P Ret)) (Q' := fun _ _ => True)
          ((fin_messageWith (fin_messageBody (cfg := cfg) cfg.fuel) ht.good hb' this (by omega)).mono
            (fun _ _ h => h) (fun _ _ _ => trivial)) (E := fun _ _ => True) (fun _ _ _ => trivial)
        rw [show (parseMessageWith (messageBody cfg cfg.fuel) >>= fun x => (pure (Ret.node (.message x)) : P Ret)) l =
          Request.run cfg .message l from rfl, h] at this
        exact this rfl
      | groupField =>
        have := Sat.bind (f := fun x => (pure (Ret.node (.groupField x)) : P Ret)) (Q' := fun _ _ => True)
          ((fin_groupWith (fin_messageBody (cfg := cfg) cfg.fuel) ht.good hb' this (by omega)).mono
            (fun _ _ h => h) (fun _ _ _ => trivial)) (E := fun _ _ => True) (fun _ _ _ => trivial)
        rw [show (parseGroupFieldWith (messageBody cfg cfg.fuel) >>= fun x => (pure (Ret.node (.groupField x)) : P Ret)) l =
          Request.run cfg .groupField l from rfl, h] at this
        exact this rfl
      | _ => exact hb.1
    · have := call_sat false (H := fun k => k = .panic) (cfg := cfg) call ht.good hi (fun _ => rfl)
        (fun hx => .inr ⟨?_, hlen hx⟩)
      · unfold CallSat at this
        rw [runK_false, h] at this
        exact Halt.noConfusion this
      · have hq : NoGroup input := fun hq => hb ⟨hx, fun hq' => (hg hx).1 ⟨hq, hq'⟩⟩
        rw [e1] at hq
        exact noGroup_suffix hq
  cases hx : call.run cfg l with
  | ok r l' => exact .inl ⟨r, l', rfl⟩
  | err e l' => exact .inr ⟨e, l', rfl⟩
  | halt k => cases k with
    | panic => exact absurd hx hpan
    | fuel => exact absurd hx hfuel

/-- Without that condition the first half of C74 is violated: `ParseMessage` at the beginning of `endless` does not return. -/
theorem call_returns_violation (b : Bool) (n : Nat) :
    Request.run ⟨true, b, n⟩ .message (Lexer.new endless []) = .halt .fuel := by
  show (parseMessageWith (messageBody ⟨true, b, n⟩ n) >>= _) _ = _
  refine bind_fuel ?_
  unfold parseMessageWith
  rw [bind_isOk () (by decide +kernel)]
  rw [bind_isOk (SPos.new []) (by decide +kernel)]
  rw [bind_isOk () (by decide +kernel)]
  rw [bind_isOk [] (by decide +kernel)]
  refine bind_fuel ?_
  cases n with
  | zero => rfl
  | succ d =>
    show messageBodyWith ⟨true, b, d + 1⟩ (messageBody ⟨true, b, d + 1⟩ d) _ = _
    unfold messageBodyWith
    rw [bind_isOk () (by decide +kernel)]
    rw [bind_isOk none (by decide +kernel)]
    rw [bind_isOk () (by decide +kernel)]
    rw [bind_isOk .illegal (by decide +kernel)]
    refine ite_run (by decide +kernel) ?_
    rw [bind_isOk () (by decide +kernel)]
    exact loop_endless (d + 1) [] _ (.inl (by decide +kernel)) (by decide +kernel)

/-- C74: the leading position of the error of a call is a position of the text.  Missing: messages with failed
groups. -/
theorem call_error_position_partial {input file : Str} (hn : NulFree input) {cfg : Cfg} {h : List (Request × Ret)}
    {l l' : Lexer} (hr : Ran cfg input (Lexer.new input file) h l) {call : Request} {e : Err}
    (hc : call.run cfg l = .err e l') (hg : Grouped call → NoGroup input ∨ call.runK true cfg l = .err e l') :
    PosIn file input (leadPos e) ∧ (cfg.permissive = true → ∀ p ∈ positions e, PosIn file input p) := by
  obtain ⟨⟨is, ht⟩, hi, _⟩ := ran_took hr (good_new hn) ⟨[], Inv.new _ _⟩ ⟨[], rfl⟩
  obtain ⟨_, c, e1, _⟩ := id ht
  have e1 : input = c ++ l.scanner.inp := e1
  have h1 := call_sat false (H := fun _ => True) (cfg := cfg) call ht.good hi (fun _ => trivial) (fun _ => .inl trivial)
  have h2 := call_sat true (H := fun _ => True) (cfg := cfg) call ht.good hi (fun _ => trivial) (fun _ => .inl trivial)
  unfold CallSat at h1 h2
  rw [runK_false, hc] at h1
  have hx : ErrAt (!cfg.permissive) (Lexer.new input file) e := by
    refine ErrAt.trans ht.took ?_
    by_cases h : Grouped call
    · rcases hg h with hg | hg
      · rw [e1] at hg
        exact h1 (.inl (.inl (noGroup_suffix hg)))
      · rw [hg] at h2
        exact h2 (.inl (.inr rfl))
    · exact h1 (.inr h)
  refine ⟨errAt_lead hx, fun hp => ?_⟩
  rw [hp] at hx
  exact errAt_all hx

/-! ## Every well-formed statement is read -/

/-- `Writes G call r ts`: the tokens `ts` are what the call reads to return `r` (comments and positions are those
of `r`, which need not be those of the text). -/
inductive Writes (G : Gram) : Request → Ret → List Tok → Prop
  | syntax_ (x : Syntax) (ts : List Tok) : SyntaxToks x ts → Writes G .syntax_ (.syntax_ (some x)) ts
  | edition (x : Edition) (ts : List Tok) : EditionToks x ts → Writes G .edition (.edition (some x)) ts
  | importStmt (x : Import) (ts : List Tok) : ImportToks G x ts → Writes G .importStmt (.node (.importStmt x)) ts
  | package (x : Package) (ts : List Tok) : PackageToks x ts → Writes G .package (.node (.package x)) ts
  | option (x : OptionStmt) (ts : List Tok) : OptionToks G x ts → Writes G .option (.node (.option x)) ts
  | message (x : Message) (ts : List Tok) : Toks G .message (.message x) ts →
      Writes G .message (.node (.message x)) ts
  | enum (x : Enum) (ts : List Tok) : Toks G .message (.enum x) ts → Writes G .enum (.node (.enum x)) ts
  | service (x : Service) (ts : List Tok) : Toks G .file (.service x) ts → Writes G .service (.node (.service x)) ts
  | extend (x : Extend) (ts : List Tok) : Toks G .message (.extend x) ts → Writes G .extend (.node (.extend x)) ts
  | field (x : Field) (ts : List Tok) : FieldToks G x ts → Writes G .field (.node (.field x)) ts
  | mapField (x : MapField) (ts : List Tok) : MapFieldToks G x ts → Writes G .mapField (.node (.mapField x)) ts
  | groupField (x : GroupField) (ts : List Tok) : Toks G .message (.groupField x) ts →
      Writes G .groupField (.node (.groupField x)) ts
  | oneof (x : Oneof) (ts : List Tok) : OneofToks G x ts → Writes G .oneof (.node (.oneof x)) ts
  | reserved (x : Reserved) (ts : List Tok) : ReservedToks G x ts → Writes G .reserved (.node (.reserved x)) ts
  | extensions (x : Extensions) (ts : List Tok) : ExtensionsToks x ts →
      Writes G .extensions (.node (.extensions x)) ts
  | declaration (x : Declaration) (ts : List Tok) : DeclarationToks x ts →
      Writes G .declaration (.declaration x) ts
  | comments (cs : List Verif.Comment) : Writes G .comments (.comments cs) []
  | isEOF (b : Bool) : Writes G .isEOF (.flag b) []
  | inline (v : Visitee) : bare v ≠ .nil → Writes G (.inline v) (.node v) []

/-- The spellings of a sequence of statements, followed by any others.  In permissive mode a semicolon behind a
right curly belongs to the block. -/
inductive Script (G : Gram) : List (Request × Ret) → List Str → Prop
  | nil (ws : List Str) : Script G [] ws
  | cons (call : Request) (r : Ret) (ts : List Tok) (h : List (Request × Ret)) (ws : List Str) : Writes G call r ts →
      (G.permissive = true → (words ts).getLast? = some c!"}" → ∀ c w, ws.head? = some (c :: w) → c ≠ ';') →
      Script G h ws → Script G ((call, r) :: h) (words ts ++ ws)

/-- The same up to comments and positions. -/
inductive Alike : Ret → Ret → Prop
  | syntax_ (a b : Syntax) : bareSyntax a = bareSyntax b → Alike (.syntax_ (some a)) (.syntax_ (some b))
  | edition (a b : Edition) : bareEdition a = bareEdition b → Alike (.edition (some a)) (.edition (some b))
  | declaration (a b : Declaration) : bareDeclaration a = bareDeclaration b → Alike (.declaration a) (.declaration b)
  | comments (as bs : List Verif.Comment) : Alike (.comments as) (.comments bs)
  | flag (a b : Bool) : Alike (.flag a) (.flag b)
  | node (a b : Visitee) : bare a = bare b → Alike (.node a) (.node b)

/-- The same calls with the same results. -/
inductive Alikes : List (Request × Ret) → List (Request × Ret) → Prop
  | nil : Alikes [] []
  | cons (call : Request) (a b : Ret) (h h' : List (Request × Ret)) : Alike a b → Alikes h h' →
      Alikes ((call, a) :: h) ((call, b) :: h')

theorem go_plain {cfg : Cfg} {call : Request} {l : Lexer} {α : Type} {m : P α} {g : α → Ret} {T : Src} {r : Ret}
    {rest : List Str} {R : α → Prop} (hm : call.runK true cfg = (do return g (← m)))
    (hs : Sat (fun _ => False) (fun a l' => R a ∧ Ahead T l' rest) (fun _ _ => False) (m l))
    (hR : ∀ a, R a → Alike (g a) r) :
    Sat (fun _ => False) (fun r' l' => Alike r' r ∧ Ahead T l' rest) (fun _ _ => False) (call.runK true cfg l) := by
  rw [hm]
  refine Sat.bind hs ?_
  rintro a l' ⟨h1, h2⟩
  exact ⟨hR a h1, h2⟩

theorem call_go {cfg : Cfg} {G : Gram} (hG : G.permissive = cfg.permissive) (hl : G.loose = false)
    (hj : G.junk = false) {call : Request} {r : Ret} {ts : List Tok} (hw : Writes G call r ts) {rest : List Str}
    (hs : G.permissive = true → (words ts).getLast? = some c!"}" → ∀ c w, rest.head? = some (c :: w) → c ≠ ';')
    (hf : ts.length < cfg.fuel) {T : Src} {l : Lexer} (h : Ahead T l (words ts ++ rest)) :
    Sat (fun _ => False) (fun r' l' => Alike r' r ∧ Ahead T l' rest) (fun _ _ => False) (call.runK true cfg l) := by
  have hs : Parser.Shut cfg ts rest := by
    intro hp hc
    have := hs (hG.trans hp) hc
    cases rest with
    | nil => trivial
    | cons w ws =>
      intro c hc'
      cases w with
      | nil => simp at hc'
      | cons d w =>
        simp only [List.head?_cons, Option.some.injEq] at hc'
        subst hc'
        simpa using this d w rfl
  cases hw with
  | syntax_ x _ hx =>
    exact go_plain rfl (parseSyntax_go hx h) (by rintro a ⟨s, rfl, e⟩; exact .syntax_ _ _ e)
  | edition x _ hx =>
    exact go_plain rfl (parseEdition_go hx h) (by rintro a ⟨s, rfl, e⟩; exact .edition _ _ e)
  | importStmt x _ hx => exact go_plain rfl (parseImport_go hl hx h) (fun _ e => .node _ _ (by simp [bare, e]))
  | package x _ hx => exact go_plain rfl (parsePackage_go hx h) (fun _ e => .node _ _ (by simp [bare, e]))
  | option x _ hx => exact go_plain rfl (parseOption_go hG hl hx h) (fun _ e => .node _ _ (by simp [bare, e]))
  | field x _ hx => exact go_plain rfl (parseField_go hG hl hx h) (fun _ e => .node _ _ (by simp [bare, e]))
  | mapField x _ hx => exact go_plain rfl (parseMapField_go hG hl hx h) (fun _ e => .node _ _ (by simp [bare, e]))
  | oneof x _ hx => exact go_plain rfl (parseOneof_go hG hl hx hs h) (fun _ e => .node _ _ (by simp [bare, e]))
  | reserved x _ hx => exact go_plain rfl (parseReserved_go hl hx h) (fun _ e => .node _ _ (by simp [bare, e]))
  | extensions x _ hx => exact go_plain rfl (parseExtensions_go hx h) (fun _ e => .node _ _ (by simp [bare, e]))
  | declaration x _ hx => exact go_plain rfl (parseDeclaration_go hx h) (fun _ e => .declaration _ _ e)
  | message x _ hx =>
    cases hx with
    | message _ _ hd bs cl hk h1 hn hb hc _ =>
      have := parseMessage_go (calm := true) (H := fun _ => False) (E := fun _ _ => False) hG hl hj h1 hn hb hc hs
        (by simp only [List.length_append] at hf; omega) h
      refine go_plain rfl this ?_
      rintro ⟨nm, body, _, _, _, _⟩ ⟨rfl, e⟩
      exact .node _ _ (by cases x; simp_all [bare])
  | groupField x _ hx =>
    cases hx with
    | group _ ls c w hd bs cl hls h1 hn hc' hcap hi hb hc _ =>
      have hbody : BodyGo (fun _ => False) cfg G cfg.fuel (messageBodyK true cfg cfg.fuel) :=
        messageBody_go hG hl hj cfg.fuel
      have := groupWith_go (E := fun _ _ => False) hbody hG hls h1 hn hc' hcap hi hb hc hs
        (by simp only [List.length_append] at hf; omega) (by simp only [List.length_append] at hf; omega) h
      refine go_plain rfl this ?_
      rintro ⟨a, b, c, nm, body, num, _, _, _, _⟩ ⟨e1, e2, e3, e4, e5, e6⟩
      exact .node _ _ (by cases x; simp_all [bare])
  | enum x _ hx =>
    cases hx with
    | enum _ _ hd bs cl hk h1 hn hb hc _ =>
      refine go_plain rfl (parseEnum_go hG hl hj h1 hn hb hc hs h) ?_
      rintro ⟨nm, body, _, _, _, _⟩ ⟨rfl, e⟩
      exact .node _ _ (by cases x; simp_all [bare])
  | service x _ hx =>
    cases hx with
    | service _ hd bs cl h1 hn hb hc _ =>
      refine go_plain rfl (parseService_go hG hl hj h1 hn hb hc hs h) ?_
      rintro ⟨nm, body, _, _, _, _⟩ ⟨rfl, e⟩
      exact .node _ _ (by cases x; simp_all [bare])
  | extend x _ hx =>
    cases hx with
    | extend _ _ ws hd bs cl hk hm h1 hb hc _ =>
      refine go_plain rfl (parseExtend_go hG hl hj hm h1 hb hc hs h) ?_
      rintro ⟨nm, body, _, _, _, _⟩ ⟨rfl, e⟩
      exact .node _ _ (by cases x; simp_all [bare])
  | comments cs => exact go_comments h (fun cs' l' h' => ⟨.comments _ _, h'⟩)
  | isEOF b =>
    refine sat_isEOF h.good ?_
    exact ⟨.flag _ _, Ahead.putBack h {}⟩
  | inline v hv => exact maybeScan_go hv h (fun r l' e h' => ⟨.node _ _ e, h'⟩)

theorem script_go {cfg : Cfg} {G : Gram} (hG : G.permissive = cfg.permissive) (hl : G.loose = false)
    (hj : G.junk = false) {h : List (Request × Ret)} {ws : List Str} (hs : Script G h ws)
    (hf : ws.length < cfg.fuel) {T : Src} {l : Lexer} (ha : Ahead T l ws) {input : Str} :
    ∃ h' l', Ran cfg input l h' l' ∧ Alikes h' h := by
  induction hs generalizing l with
  | nil ws => exact ⟨[], l, .nil l, .nil⟩
  | cons call r ts h ws hw hsh _ ih =>
    simp only [List.length_append, words, List.length_map] at hf
    have := call_go hG hl hj hw hsh (by omega) ha
    generalize hx : call.runK true cfg l = x at this
    cases x with
    | ok a l1 =>
      obtain ⟨h', l', h1, h2⟩ := ih (by omega) this.2
      have hr : call.run cfg l = .ok a l1 := by
        rcases runK_true cfg call l with e | e
        · rw [hx] at e; cases e
        · rw [← e, hx]
      exact ⟨_, l', .cons _ _ _ _ _ _ hr (.inr hx) h1, .cons _ _ _ _ _ this.1 h2⟩
    | err e l1 => exact this.elim
    | halt k => exact this.elim

/-- C75: if the text begins with statements of the grammar, in any layout and with any comments between the tokens,
then the parsers of these statements, called one after the other (and with calls for comments, inline comments and
the end of the text in between), all succeed and return these statements. -/
theorem calls_complete {input file : Str} (hn : NulFree input) {cfg : Cfg} {h : List (Request × Ret)} {ws : List Str}
    (hs : Script ⟨cfg.permissive, false, false⟩ h ws) (hl : Laid ws input) (hf : input.length < cfg.fuel) :
    ∃ h' l', Ran cfg input (Lexer.new input file) h' l' ∧ Alikes h' h := by
  have := laid_length hl
  exact script_go rfl rfl rfl hs (by omega) (ahead_here (good_new hn) hl)

/-! ## Concrete histories -/

/-- The calls, one after the other. -/
def runAll (cfg : Cfg) : List Request → Lexer → Option (List (Request × Ret) × Lexer)
  | [], l => some ([], l)
  | c :: cs, l =>
    match c.runK true cfg l with
    | .ok r l1 => (runAll cfg cs l1).map fun x => ((c, r) :: x.1, x.2)
    | _ => none

theorem runAll_ran {cfg : Cfg} {cs : List Request} {l l' : Lexer} {h : List (Request × Ret)}
    (hr : runAll cfg cs l = some (h, l')) (input : Str) : Ran cfg input l h l' := by
  induction cs generalizing l h with
  | nil => simp only [runAll, Option.some.injEq, Prod.mk.injEq] at hr; obtain ⟨rfl, rfl⟩ := hr; exact .nil _
  | cons c cs ih =>
    simp only [runAll] at hr
    split at hr
    · rename_i r l1 hc
      simp only [Option.map_eq_some_iff, Prod.mk.injEq] at hr
      obtain ⟨⟨h', l2⟩, h1, rfl, rfl⟩ := hr
      refine .cons _ _ _ _ _ _ ?_ (.inr hc) (ih h1)
      rcases runK_true cfg c l with e | e
      · rw [hc] at e; cases e
      · rw [← e, hc]
    · simp at hr

/-- A condition on the results of some calls, and of the call behind them. -/
def afterwards (cfg : Cfg) (cs : List Request) (input : Str) (f : List (Request × Ret) → Bool) (c : Request)
    (g : Res Lexer Err Ret → Bool) : Bool :=
  match runAll cfg cs (Lexer.new input []) with
  | some (h, l) => f h && g (c.run cfg l)
  | none => false

theorem afterwards_ran {cfg : Cfg} {cs : List Request} {input : Str} {f : List (Request × Ret) → Bool} {c : Request}
    {g : Res Lexer Err Ret → Bool} (h : afterwards cfg cs input f c g = true) :
    ∃ h l, Ran cfg input (Lexer.new input []) h l ∧ f h = true ∧ g (c.run cfg l) = true := by
  unfold afterwards at h
  split at h
  · rename_i h' l hr
    simp only [Bool.and_eq_true] at h
    exact ⟨h', l, runAll_ran hr _, h⟩
  · cases h

/-- The fields of the results. -/
def fieldsOf (h : List (Request × Ret)) : List (Str × Meta) := h.filterMap fun x =>
  match x.2 with
  | .node (.field x) => some (x.fieldName, x.info)
  | .node (.message x) => some (x.messageName, x.info)
  | _ => none

/-- C73 on a history of five calls: comments, a field, a message, comments, a field.  The second field parser stops
behind its semicolon; the text that follows it is not even a statement. -/
example : ∃ h l, Ran { permissive := true, bodyIncludingComments := false, fuel := 60 }
      c!"// c\nint32 a = 1; message M { ; group G=1{} } // d\n string b=2; }"
      (Lexer.new c!"// c\nint32 a = 1; message M { ; group G=1{} } // d\n string b=2; }" []) h l ∧
    NulFree c!"// c\nint32 a = 1; message M { ; group G=1{} } // d\n string b=2; }" ∧
    fieldsOf h = [(c!"a", ⟨posAt [] c!"// c\n", posAt [] c!"// c\nint32 a = 1"⟩),
      (c!"M", ⟨posAt [] c!"// c\nint32 a = 1; ", posAt [] c!"// c\nint32 a = 1; message M { ; group G=1{} "⟩),
      (c!"b", ⟨posAt [] c!"// c\nint32 a = 1; message M { ; group G=1{} } // d\n ",
        posAt [] c!"// c\nint32 a = 1; message M { ; group G=1{} } // d\n string b=2"⟩)] := by
  obtain ⟨h, l, h1, h2, _⟩ := afterwards_ran (cfg := { permissive := true, bodyIncludingComments := false, fuel := 60 })
    (cs := [.comments, .field, .message, .comments, .field]) (c := .isEOF)
    (input := c!"// c\nint32 a = 1; message M { ; group G=1{} } // d\n string b=2; }")
    (f := fun h => decide (fieldsOf h = [(c!"a", ⟨posAt [] c!"// c\n", posAt [] c!"// c\nint32 a = 1"⟩),
      (c!"M", ⟨posAt [] c!"// c\nint32 a = 1; ", posAt [] c!"// c\nint32 a = 1; message M { ; group G=1{} "⟩),
      (c!"b", ⟨posAt [] c!"// c\nint32 a = 1; message M { ; group G=1{} } // d\n ",
        posAt [] c!"// c\nint32 a = 1; message M { ; group G=1{} } // d\n string b=2"⟩)])) (g := fun _ => true) (by decide +kernel)
  exact ⟨h, l, h1, by unfold NulFree; decide, of_decide_eq_true h2⟩

/-- C74 on a call that fails behind a history: both positions of the error are in the text. -/
example : ∃ h l e l', Ran { permissive := true, bodyIncludingComments := false, fuel := 60 }
      c!"int32 a = 1; int32 b = c;" (Lexer.new c!"int32 a = 1; int32 b = c;" []) h l ∧ h.length = 1 ∧
    Request.run { permissive := true, bodyIncludingComments := false, fuel := 60 } .field l = .err e l' ∧
    leadPos e = posAt [] c!"int32 a = 1; int32 b = " := by
  obtain ⟨h, l, h1, h2, h3⟩ := afterwards_ran (cfg := { permissive := true, bodyIncludingComments := false, fuel := 60 })
    (cs := [.field]) (c := .field) (input := c!"int32 a = 1; int32 b = c;")
    (f := fun h => decide (h.length = 1))
    (g := fun r => match r with
      | .err e _ => decide (leadPos e = posAt [] c!"int32 a = 1; int32 b = ")
      | _ => false) (by decide +kernel)
  split at h3
  · rename_i e l' hr
    exact ⟨h, l, e, l', h1, of_decide_eq_true h2, hr, of_decide_eq_true h3⟩
  · cases h3

/-- C75 on two packages, with calls for comments between them, before a text that is no statement. -/
example : ∃ h' l', Ran { permissive := true, bodyIncludingComments := false, fuel := 100 }
      (spaced [c!"package", c!"p", c!";", c!"package", c!"q", c!".", c!"r", c!";", c!"}", c!"}"])
      (Lexer.new (spaced [c!"package", c!"p", c!";", c!"package", c!"q", c!".", c!"r", c!";", c!"}", c!"}"]) []) h' l' ∧
    Alikes h' [(.comments, .comments []), (.package, .node (.package { name := c!"p", info := {} })),
      (.inline (.package { name := c!"p", info := {} }), .node (.package { name := c!"p", info := {} })),
      (.comments, .comments []), (.package, .node (.package { name := c!"q.r", info := {} })), (.isEOF, .flag false)] := by
  have h1 : Writes ⟨true, false, false⟩ .package (.node (.package { name := c!"p", info := {} }))
      ([c!"package", c!"p", c!";"].map tokOf) :=
    .package _ _ ⟨[c!"p"], .one _ (word_of (by decide)), rfl, spans_tokOf (by simp)⟩
  have h2 : Writes ⟨true, false, false⟩ .package (.node (.package { name := c!"q.r", info := {} }))
      ([c!"package", c!"q", c!".", c!"r", c!";"].map tokOf) :=
    .package _ _ ⟨[c!"q", c!".", c!"r"], .more c!"q" c!"r" _ (word_of (by decide)) (.one _ (word_of (by decide))), rfl,
      spans_tokOf (by simp)⟩
  refine calls_complete ?_ (cfg := { permissive := true, bodyIncludingComments := false, fuel := 100 })
    (ws := [c!"package", c!"p", c!";", c!"package", c!"q", c!".", c!"r", c!";", c!"}", c!"}"])
    (.cons _ _ [] _ _ (.comments _) (by simp [words]) (.cons _ _ _ _ _ h1 (by simp [words, tokOf])
      (.cons _ _ [] _ _ (.inline _ (by simp [bare])) (by simp [words]) (.cons _ _ [] _ _ (.comments _) (by simp [words])
        (.cons _ _ _ _ _ h2 (by simp [words, tokOf]) (.cons _ _ [] _ _ (.isEOF _) (by simp [words]) (.nil _)))))))
    (laid_sample (by decide)) (by decide)
  unfold NulFree
  decide

/-- `MaybeScanInlineComment(nil)` panics if there is an inline comment. -/
theorem call_inline_violation : ∃ h l, Ran { permissive := true, bodyIncludingComments := false, fuel := 30 }
      c!"package p; // c" (Lexer.new c!"package p; // c" []) h l ∧
    Request.run { permissive := true, bodyIncludingComments := false, fuel := 30 } (.inline .nil) l = .halt .panic := by
  obtain ⟨h, l, h1, _, h3⟩ := afterwards_ran (cfg := { permissive := true, bodyIncludingComments := false, fuel := 30 })
    (cs := [.package]) (c := .inline .nil) (input := c!"package p; // c") (f := fun _ => true)
    (g := fun r => match r with
      | .halt .panic => true
      | _ => false) (by decide +kernel)
  split at h3
  · rename_i hr
    exact ⟨h, l, h1, hr⟩
  · cases h3

/-- The hypotheses of `call_returns_partial` are met behind a call by a group parser, on a text with `group`. -/
example : ∃ h l, Ran { permissive := true, bodyIncludingComments := false, fuel := 90 }
      c!"message M { ; group G=1{} } optional group H=2 { int32 a }"
      (Lexer.new c!"message M { ; group G=1{} } optional group H=2 { int32 a }" []) h l ∧ h.length = 1 ∧
    Grouped .groupField ∧
    ¬ (c!"group" <:+: c!"message M { ; group G=1{} } optional group H=2 { int32 a }" ∧
      c!"/*" <:+: c!"message M { ; group G=1{} } optional group H=2 { int32 a }") := by
  obtain ⟨h, l, h1, h2, _⟩ := afterwards_ran (cfg := { permissive := true, bodyIncludingComments := false, fuel := 90 })
    (cs := [.message]) (c := .groupField)
    (input := c!"message M { ; group G=1{} } optional group H=2 { int32 a }")
    (f := fun h => decide (h.length = 1)) (g := fun _ => true) (by decide +kernel)
  exact ⟨h, l, h1, of_decide_eq_true h2, trivial, by decide +kernel⟩

end Verif.Props
