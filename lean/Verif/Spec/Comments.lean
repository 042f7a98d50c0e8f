import Verif.Spec.Nodes

/-!
# Which comments belong to which statement

A text is seen as the stream of its tokens and comments.  A statement owns the comments that stand
directly before its first token, and the comment behind its last token if that is on the same line; a
block owns the comment behind its left curly if that is on the same line.  The comments that no
node owns are named `lost` below.
-/

namespace Verif.Spec

/-- A token or a comment. -/
inductive Item
  | tok (t : Tok)
  | com (c : Verif.Comment)
  deriving DecidableEq, Repr

/-- The tokens of a stream. -/
def toks : List Item → List Tok
  | [] => []
  | .tok t :: is => t :: toks is
  | .com _ :: is => toks is

/-- The comments of a stream. -/
def commentsIn : List Item → List Verif.Comment
  | [] => []
  | .tok _ :: is => commentsIn is
  | .com c :: is => c :: commentsIn is

/-- A stream of comments. -/
def coms (cs : List Verif.Comment) : List Item := cs.map .com

/-- A stream of at most one comment. -/
def opt (o : Option Verif.Comment) : List Item := coms o.toList

/-- The comment whose text is `text`, behind the text `before` of the file `file`: it ends at its last
rune. -/
def sourceComment (file before text : Str) : Verif.Comment where
  raw := text
  info := { pos := posAt file before, lastPos := posAt file (before ++ text.dropLast) }

/-- `Stream file before after is c`: in the file `file`, between the texts `before` and `after`, the text
`c` consists of the tokens and comments `is` and of white space; their positions are those of
their first (and last) runes. -/
inductive Stream (file : Str) : Str → Str → List Item → Str → Prop
  | nil {before after : Str} : Stream file before after [] []
  | space {before after : Str} (ch : Char) (is : List Item) (c : Str) : White ch →
      Stream file (before ++ [ch]) after is c → Stream file before after is (ch :: c)
  | com {before after : Str} (raw text : Str) (is : List Item) (c : Str) :
      Comment (c ++ after) raw text → Stream file (before ++ raw) after is c →
      Stream file before after (.com (sourceComment file before text) :: is) (raw ++ c)
  | tok {before after : Str} (w : Str) (is : List Item) (c : Str) : w ≠ [] → Solid (w ++ (c ++ after)) →
      Sharp w (c ++ after) → Stream file (before ++ w) after is c →
      Stream file before after (.tok ⟨w, posAt file before⟩ :: is) (w ++ c)

/-- The stream starts with a token. -/
def Starts (is : List Item) : Prop := ∃ t js, is = .tok t :: js

/-- The stream ends with the token `t`. -/
def EndsIn (t : Tok) (is : List Item) : Prop := ∃ js, is = js ++ [.tok t]

/-- The comment `o` is the one behind line `n`, before the stream `rest`: it starts on the line `n`, and
there is none only if no comment on line `n` follows. -/
def Behind (n : Int) (o : Option Verif.Comment) (rest : List Item) : Prop :=
  (∀ c, o = some c → c.info.pos.line = n) ∧
  (o = none → ∀ c, rest.head? = some (.com c) → c.info.pos.line ≠ n)

/-- The comments before a statement, as recorded in it. -/
def commentsOf : Visitee → Option (List Verif.Comment)
  | .nil | .comment _ | .emptyStatement _ => none
  | .importStmt x => some x.comments
  | .package x => some x.comments
  | .option x => some x.comments
  | .message x => some x.comments
  | .enum x => some x.comments
  | .service x => some x.comments
  | .extend x => some x.comments
  | .field x => some x.comments
  | .enumField x => some x.comments
  | .oneof x => some x.comments
  | .mapField x => some x.comments
  | .groupField x => some x.comments
  | .reserved x => some x.comments
  | .extensions x => some x.comments
  | .rpc x => some x.comments

/-- The comment behind a statement, as recorded in it. -/
def inlineOf : Visitee → Option Verif.Comment
  | .nil | .comment _ => none
  | .emptyStatement x => x.inlineComment
  | .importStmt x => x.inlineComment
  | .package x => x.inlineComment
  | .option x => x.inlineComment
  | .message x => x.inlineComment
  | .enum x => x.inlineComment
  | .service x => x.inlineComment
  | .extend x => x.inlineComment
  | .field x => x.inlineComment
  | .enumField x => x.inlineComment
  | .oneof x => x.inlineComment
  | .mapField x => x.inlineComment
  | .groupField x => x.inlineComment
  | .reserved x => x.inlineComment
  | .extensions x => x.inlineComment
  | .rpc x => x.inlineComment

/-- The first part of a statement, up to and with the first token `w`. -/
def UpTo (w : Str) (b : Tok) (is : List Item) : Prop :=
  b.text = w ∧ ∃ js, is = js ++ [.tok b] ∧ ∀ t ∈ toks js, t.text ≠ w

/-- The items of a oneof with their comments, up to its right curly. -/
inductive ComOneof (G : Gram) : List OneofField → List OptionStmt → List Item → Prop
  | lastField (x : OneofField) (seg : List Item) (b : Tok) (lost : List Verif.Comment) :
      OneofFieldToks G x (toks seg) → Starts seg → EndsIn b seg →
      Behind b.pos.line x.inlineComment (coms lost) →
      ComOneof G [x] [] (coms x.comments ++ seg ++ opt x.inlineComment ++ coms lost)
  | lastOption (x : OptionStmt) (seg : List Item) (b : Tok) (lost : List Verif.Comment) :
      OptionToks G x (toks seg) → Starts seg → EndsIn b seg →
      Behind b.pos.line x.inlineComment (coms lost) →
      ComOneof G [] [x] (coms x.comments ++ seg ++ opt x.inlineComment ++ coms lost)
  | field (x : OneofField) (seg : List Item) (b : Tok) (fs : List OneofField) (os : List OptionStmt)
      (js : List Item) : OneofFieldToks G x (toks seg) → Starts seg → EndsIn b seg →
      Behind b.pos.line x.inlineComment js → ComOneof G fs os js →
      ComOneof G (x :: fs) os (coms x.comments ++ seg ++ opt x.inlineComment ++ js)
  | option (x : OptionStmt) (seg : List Item) (b : Tok) (fs : List OneofField) (os : List OptionStmt)
      (js : List Item) : OptionToks G x (toks seg) → Starts seg → EndsIn b seg →
      Behind b.pos.line x.inlineComment js → ComOneof G fs os js →
      ComOneof G fs (x :: os) (coms x.comments ++ seg ++ opt x.inlineComment ++ js)
  | empty (lost : List Verif.Comment) (t : Tok) (fs : List OneofField) (os : List OptionStmt)
      (js : List Item) : t.text = c!";" → ComOneof G fs os js →
      ComOneof G fs os (coms lost ++ .tok t :: js)

/-- A declaration: the comment behind its left curly. -/
def ComDeclaration (x : Declaration) (seg : List Item) : Prop :=
  DeclarationToks x (toks seg) ∧ ∃ hd b js, UpTo c!"{" b hd ∧
    seg = hd ++ opt x.inlineCommentBehindLeftCurly ++ js ∧
    Behind b.pos.line x.inlineCommentBehindLeftCurly js

/-- The inline comment of a declaration: the last of those behind the punctuation that follows it. -/
def orLast (i1 i2 : Option Verif.Comment) : Option Verif.Comment :=
  match i2 with
  | some c => some c
  | none => i1

/-- The declarations of an extensions statement with their comments, up to the end of the statement. -/
inductive ComDeclarations : List Declaration → List Item → Prop
  | last (x : Declaration) (seg : List Item) (lost : List Verif.Comment) (b : Tok)
      (i1 i2 : Option Verif.Comment) (tl : List Item) : ComDeclaration x seg → Starts seg →
      b.text = c!"]" → x.inlineComment = orLast i1 i2 → Behind b.pos.line i1 (opt i2 ++ tl) →
      Behind b.pos.line i2 tl → words (toks tl) = [c!";"] →
      ComDeclarations [x] (coms x.comments ++ seg ++ coms lost ++ .tok b :: opt i1 ++ opt i2 ++ tl)
  | more (x : Declaration) (seg : List Item) (lost : List Verif.Comment) (b : Tok)
      (i1 i2 : Option Verif.Comment) (xs : List Declaration) (js : List Item) :
      ComDeclaration x seg → Starts seg → b.text = c!"," →
      x.inlineComment = orLast i1 i2 → Behind b.pos.line i1 (opt i2 ++ js) → Behind b.pos.line i2 js →
      ComDeclarations xs js →
      ComDeclarations (x :: xs) (coms x.comments ++ seg ++ coms lost ++ .tok b :: opt i1 ++ opt i2 ++ js)

/-- The statements whose inner comments are not recorded. -/
def Plain : Visitee → Prop
  | .message _ | .groupField _ | .enum _ | .extend _ | .service _ | .oneof _ | .extensions _ | .rpc _ =>
    False
  | _ => True

/-- The inner comments of a block with the left curly comment `o`: `hd` are the items up to the left
curly and `body` those between the curlies. -/
def BlockAfter (o : Option Verif.Comment) (hd body seg : List Item) : Prop :=
  ∃ b cl tl, UpTo c!"{" b hd ∧ cl.text = c!"}" ∧ seg = hd ++ opt o ++ body ++ .tok cl :: tl ∧
    (words (toks tl) = [] ∨ words (toks tl) = [c!";"]) ∧ Behind b.pos.line o (body ++ [.tok cl])

/-- The same for any header. -/
def Block (o : Option Verif.Comment) (body seg : List Item) : Prop :=
  ∃ hd, BlockAfter o hd body seg

/-- A block without statements: its comments are lost. -/
def EmptyBlock (seg : List Item) : Prop :=
  ∃ hd b lost cl tl, UpTo c!"{" b hd ∧ cl.text = c!"}" ∧ seg = hd ++ coms lost ++ .tok cl :: tl ∧
    (words (toks tl) = [] ∨ words (toks tl) = [c!";"])

mutual

/-- `Com G b v seg`: the stream `seg` is the statement `v` from its first to its last token, with the
comments recorded inside of it; `b` tells if comments before a right curly are body elements. -/
inductive Com (G : Gram) (b : Bool) : Visitee → List Item → Prop
  | plain (v : Visitee) (seg : List Item) : Plain v → Com G b v seg
  | message (x : Message) (body seg : List Item) : toks body ≠ [] → ComBody G b .message x.messageBody body →
      Block x.inlineCommentBehindLeftCurly body seg → Com G b (.message x) seg
  /-- The comments of an empty block are lost. -/
  | noMessage (x : Message) (seg : List Item) : x.messageBody = [] →
      x.inlineCommentBehindLeftCurly = none → EmptyBlock seg → Com G b (.message x) seg
  | group (x : GroupField) (body seg : List Item) : toks body ≠ [] → ComBody G b .message x.messageBody body →
      Block x.inlineCommentBehindLeftCurly body seg → Com G b (.groupField x) seg
  | noGroup (x : GroupField) (seg : List Item) : x.messageBody = [] →
      x.inlineCommentBehindLeftCurly = none → EmptyBlock seg → Com G b (.groupField x) seg
  | extend (x : Extend) (body seg : List Item) : toks body ≠ [] → ComBody G b .extend x.extendBody body →
      Block x.inlineCommentBehindLeftCurly body seg → Com G b (.extend x) seg
  | noExtend (x : Extend) (seg : List Item) : x.extendBody = [] →
      x.inlineCommentBehindLeftCurly = none → EmptyBlock seg → Com G b (.extend x) seg
  | enum (x : Enum) (body seg : List Item) : ComBody G b .enum x.enumBody body →
      Block x.inlineCommentBehindLeftCurly body seg → Com G b (.enum x) seg
  | service (x : Service) (body seg : List Item) : ComBody G b .service x.serviceBody body →
      Block x.inlineCommentBehindLeftCurly body seg → Com G b (.service x) seg
  | oneof (x : Oneof) (body seg : List Item) : ComOneof G x.oneofFields x.options body →
      Block x.inlineCommentBehindLeftCurly body seg → Com G b (.oneof x) seg
  | extensions (x : Extensions) (hd : List Item) (a : Tok) (ds : List Item) :
      UpTo c!"[" a hd → ComDeclarations x.declarations ds →
      Behind a.pos.line x.inlineCommentBehindLeftSquare ds →
      Com G b (.extensions x) (hd ++ opt x.inlineCommentBehindLeftSquare ++ ds)
  | noDeclarations (x : Extensions) (seg : List Item) : x.declarations = [] →
      x.inlineCommentBehindLeftSquare = none → (∀ t ∈ toks seg, t.text ≠ c!"[") → Com G b (.extensions x) seg
  /-- The comments between the tokens of the header are embedded comments; the others are lost. -/
  | rpc (x : RPC) (hd body seg : List Item) : BlockAfter x.inlineCommentBehindLeftCurly hd body seg →
      x.embeddedComments = commentsIn hd → (∀ o ∈ x.options, o.comments = [] ∧ o.inlineComment = none) →
      Com G b (.rpc x) seg
  | noOptions (x : RPC) (seg : List Item) : x.options = [] → x.inlineCommentBehindLeftCurly = none →
      (∀ t ∈ toks seg, t.text ≠ c!"{") → x.embeddedComments = commentsIn seg → Com G b (.rpc x) seg

/-- The elements of a body with their comments. -/
inductive ComBody (G : Gram) (b : Bool) : Ctx → List Visitee → List Item → Prop
  /-- The comments behind the last statement are elements, or lost. -/
  | done (k : Ctx) (cs : List Verif.Comment) :
      ComBody G b k (if b then cs.map .comment else []) (coms cs)
  /-- A statement has the comments before it, unless it is empty, and the comment behind it. -/
  | stmt (k : Ctx) (v : Visitee) (cs : List Verif.Comment) (seg : List Item) (t : Tok)
      (vs : List Visitee) (js : List Item) : Toks G k v (toks seg) → Com G b v seg →
      (∀ cs', commentsOf v = some cs' → cs' = cs) → Starts seg → EndsIn t seg →
      Behind t.pos.line (inlineOf v) js → ComBody G b k vs js →
      ComBody G b k (v :: vs) (coms cs ++ seg ++ opt (inlineOf v) ++ js)
  /-- An empty statement of a file: it must not have a comment behind it. -/
  | semi (lost : List Verif.Comment) (t : Tok) (vs : List Visitee) (js : List Item) :
      t.text = c!";" → Behind t.pos.line none js → ComBody G b .file vs js →
      ComBody G b .file (.emptyStatement {} :: .nil :: vs) (coms lost ++ .tok t :: js)

end

/-- A head statement (`syntax`, `edition`) with the comment behind it. -/
inductive ComHead {α : Type} (R : α → List Tok → Prop) (inline : α → Option Verif.Comment)
    (rest : List Item) : Option α → List Item → Prop
  | none : ComHead R inline rest none []
  | some (x : α) (seg : List Item) (t : Tok) : R x (toks seg) → EndsIn t seg →
      Behind t.pos.line (inline x) rest → ComHead R inline rest (some x) (seg ++ opt (inline x))

/-- A file with its comments.  `cs` are the comments at its start: both the syntax and the edition
statement have them. -/
inductive ComProto (G : Gram) (b : Bool) : Proto → List Item → Prop
  | mk (x : Proto) (bom : List Item) (cs : List Verif.Comment) (ss es js : List Item) :
      bom = [] ∨ (∃ lost t, bom = coms lost ++ [.tok t] ∧ t.text = [Char.ofNat 0xFEFF]) →
      ComHead SyntaxToks Syntax.inlineComment (es ++ js) x.syntax_ ss →
      (∀ s, x.syntax_ = some s → s.comments = cs) →
      ComHead EditionToks Edition.inlineComment js x.edition es →
      (∀ e, x.edition = some e → e.comments = cs) →
      (∀ c, (ss ++ es ++ js).head? ≠ some (.com c)) →
      ComBody G b .file x.protoBody js →
      ComProto G b x (bom ++ coms cs ++ ss ++ es ++ js)

/-! ## Kept and lost comments -/

/-- The comment behind the left curly of a block, as recorded in it. -/
def leftCurlyOf : Visitee → Option Verif.Comment
  | .message x => x.inlineCommentBehindLeftCurly
  | .groupField x => x.inlineCommentBehindLeftCurly
  | .enum x => x.inlineCommentBehindLeftCurly
  | .extend x => x.inlineCommentBehindLeftCurly
  | .service x => x.inlineCommentBehindLeftCurly
  | .oneof x => x.inlineCommentBehindLeftCurly
  | .rpc x => x.inlineCommentBehindLeftCurly
  | _ => none

/-- The comments between the tokens of the header, as recorded in it. -/
def embeddedOf : Visitee → List Verif.Comment
  | .rpc x => x.embeddedComments
  | _ => []

/-- The comment is an element of a body, or recorded before, behind, at the left curly or in the header of
a node. -/
def Has (v : Visitee) (c : Verif.Comment) : Prop :=
  v = .comment c ∨ (∃ cs, commentsOf v = some cs ∧ c ∈ cs) ∨ inlineOf v = some c ∨ leftCurlyOf v = some c ∨
    c ∈ embeddedOf v

/-- The comment stands before the left curly of a block, or behind its right curly. -/
def Outside (seg : List Item) (c : Verif.Comment) : Prop :=
  ∃ hd b mid cl tl, seg = hd ++ mid ++ .tok cl :: tl ∧ UpTo c!"{" b hd ∧ cl.text = c!"}" ∧
    (words (toks tl) = [] ∨ words (toks tl) = [c!";"]) ∧ (.com c ∈ hd ∨ .com c ∈ tl)

/-- The comment stands behind the left curly of a block. -/
def Inside (seg : List Item) (c : Verif.Comment) : Prop :=
  ∃ hd b rest, seg = hd ++ rest ∧ UpTo c!"{" b hd ∧ .com c ∈ rest

/-- The places of a statement in which comments need not be recorded: between the tokens of a simple
statement, outside of the curlies of a block or in an empty block, behind the left curly of an rpc, and
before an empty statement. -/
def Lossy (v : Visitee) (seg : List Item) (c : Verif.Comment) : Prop :=
  match v with
  | .message x => Outside seg c ∨ (x.messageBody = [] ∧ .com c ∈ seg)
  | .groupField x => Outside seg c ∨ (x.messageBody = [] ∧ .com c ∈ seg)
  | .extend x => Outside seg c ∨ (x.extendBody = [] ∧ .com c ∈ seg)
  | .enum _ => Outside seg c
  | .service _ => Outside seg c
  | .rpc _ => Inside seg c
  | _ => .com c ∈ seg

/-- The statement `v` of the stream `is`, or the comments before it if it is empty, has `c` in a lossy
place. -/
def LostAt (G : Gram) (v : Visitee) (is : List Item) (c : Verif.Comment) : Prop :=
  ∃ a cs seg d, is = a ++ coms cs ++ seg ++ d ∧
    ((∃ k, Toks G k v (toks seg)) ∨ (v = .emptyStatement {} ∧ words (toks seg) = [c!";"])) ∧
    (Lossy v seg c ∨ (∃ x, v = .emptyStatement x) ∧ c ∈ cs)

end Verif.Spec
