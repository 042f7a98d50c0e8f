import Verif.Model.Api

/-!
# The parser that does not recover from a failed group

After a group that does not parse, message.go:212-231 puts a token back and looks for an empty statement
(`recoverEmpty`).  The functions below are those of the model with one difference: with `calm = true`
they give up at that point (`M.stop .fuel`).  With `calm = false` they *are* those of the model
(`parseProtoK_false`), and whatever they return with `calm = true` the model returns too
(`parseProtoK_true`).  They are proof devices: a run that is calm never had to recover from a group.
-/

namespace Verif
namespace Parser
open Lexer

/-- Recovery from a failed group. -/
def recoverK (calm : Bool) (e : Err) : P Visitee := if calm then M.stop .fuel else recoverEmpty e

/-- `fieldStmt`. -/
def fieldStmtK (calm : Bool) (cfg : Cfg) (body : P Body) (comments : List Comment) : P Visitee := do
  let isGroup ← peekIsGroup
  if isGroup then
    match ← M.attempt (parseGroupFieldWith body) with
    | .ok groupField => return .groupField { groupField with comments }
    | .error e => recoverK calm e
  else
    match ← M.attempt (parseField cfg) with
    | .ok field => return .field { field with comments }
    | .error e => recoverEmpty e

/-- `messageStmt`. -/
def messageStmtK (calm : Bool) (cfg : Cfg) (body : P Body) (comments : List Comment) (token : Token) :
    P Visitee := do
  match token with
  | .kEnum =>
    let x ← parseEnum cfg
    return .enum { x with comments }
  | .kMessage =>
    let x ← parseMessageWith body
    return .message { x with comments }
  | .kOption =>
    let x ← parseOption cfg
    return .option { x with comments }
  | .kOneof =>
    let x ← parseOneof cfg
    return .oneof { x with comments }
  | .kMap =>
    let x ← parseMapField cfg
    return .mapField { x with comments }
  | .kExtend =>
    let x ← parseExtend cfg
    return .extend { x with comments }
  | .kReserved =>
    let x ← parseReserved
    return .reserved { x with comments }
  | .kExtensions =>
    let x ← parseExtensions
    return .extensions { x with comments }
  | _ => fieldStmtK calm cfg body comments

/-- `messageLoop`. -/
def messageLoopK (calm : Bool) (cfg : Cfg) (body : P Body) (inlineLeftCurly : Option Comment) :
    Nat → List Visitee → P Body
  | 0, _ => M.stop .fuel
  | n + 1, stmts => do
    let comments ← parseComments
    let token ← peekKeyword
    if token = .rightCurly then
      closeBody cfg comments stmts inlineLeftCurly
    else
      let stmt ← messageStmtK calm cfg body comments token
      let stmt ← maybeScanInlineComment stmt
      messageLoopK calm cfg body inlineLeftCurly n (stmts ++ [stmt])

/-- `messageBodyWith`. -/
def messageBodyWithK (calm : Bool) (cfg : Cfg) (body : P Body) : P Body := do
  expect next .leftCurly "{"
  let inlineLeftCurly ← parseInlineComment
  next
  let t ← tok
  if t = .rightCurly then
    let lastPos ← blockLastPos cfg
    return ([], none, lastPos)
  else
    unNext
    messageLoopK calm cfg body inlineLeftCurly cfg.fuel []

/-- `messageBody`. -/
def messageBodyK (calm : Bool) (cfg : Cfg) : Nat → P Body
  | 0 => M.stop .fuel
  | d + 1 => messageBodyWithK calm cfg (messageBodyK calm cfg d)

/-- `parseMessage`. -/
def parseMessageK (calm : Bool) (cfg : Cfg) : P Message := parseMessageWith (messageBodyK calm cfg cfg.fuel)

/-- `protoStmt`. -/
def protoStmtK (calm : Bool) (cfg : Cfg) (comments : List Comment) (token : Token) :
    P (List Visitee × Visitee) := do
  match token with
  | .kImport =>
    let x ← parseImport
    return ([], .importStmt { x with comments })
  | .kPackage =>
    let x ← parsePackage
    return ([], .package { x with comments })
  | .kOption =>
    let x ← parseOption cfg
    return ([], .option { x with comments })
  | .kMessage =>
    let x ← parseMessageK calm cfg
    return ([], .message { x with comments })
  | .kEnum =>
    let x ← parseEnum cfg
    return ([], .enum { x with comments })
  | .kService =>
    let x ← parseService cfg
    return ([], .service { x with comments })
  | .kExtend =>
    let x ← parseExtend cfg
    return ([], .extend { x with comments })
  | _ =>
    readEmptyStatement
    return ([.emptyStatement {}], .nil)

/-- `protoLoop`. -/
def protoLoopK (calm : Bool) (cfg : Cfg) : Nat → List Visitee → P (List Visitee)
  | 0, _ => M.stop .fuel
  | n + 1, protoBody => do
    let comments ← parseComments
    if ← isEOF then
      return protoBody ++ bodyComments cfg comments
    else
      let token ← peekKeyword
      let (now, stmt) ← protoStmtK calm cfg comments token
      let stmt ← maybeScanInlineComment stmt
      protoLoopK calm cfg n (protoBody ++ now ++ [stmt])

/-- `parseProtoBody`. -/
def parseProtoBodyK (calm : Bool) (cfg : Cfg) : P (List Visitee) := protoLoopK calm cfg cfg.fuel []

/-- `parseProto`. -/
def parseProtoK (calm : Bool) (cfg : Cfg) : P Proto := do
  parseBOM
  let comments ← parseComments
  let syntax_ ← syntaxPart comments
  let edition ← editionPart comments
  let protoBody ← parseProtoBodyK calm cfg
  let pos ← position
  return { syntax_, edition, protoBody, metaFilename := pos.p.filename }

/-! ## `calm = false` is the model -/

theorem fieldStmtK_false (cfg : Cfg) (body : P Body) (cs : List Comment) :
    fieldStmtK false cfg body cs = fieldStmt cfg body cs := by
  unfold fieldStmtK fieldStmt recoverK
  rfl

theorem messageStmtK_false (cfg : Cfg) (body : P Body) (cs : List Comment) (t : Token) :
    messageStmtK false cfg body cs t = messageStmt cfg body cs t := by
  unfold messageStmtK messageStmt
  rw [fieldStmtK_false]
  rfl

theorem messageLoopK_false (cfg : Cfg) (body : P Body) (il : Option Comment) (n : Nat) (vs : List Visitee) :
    messageLoopK false cfg body il n vs = messageLoop cfg body il n vs := by
  induction n generalizing vs with
  | zero => rfl
  | succ n ih => simp only [messageLoopK, messageLoop, messageStmtK_false, ih]

theorem messageBodyWithK_false (cfg : Cfg) (body : P Body) :
    messageBodyWithK false cfg body = messageBodyWith cfg body := by
  simp only [messageBodyWithK, messageBodyWith, messageLoopK_false]

theorem messageBodyK_false (cfg : Cfg) (d : Nat) :
    messageBodyK false cfg d = messageBody cfg d := by
  induction d with
  | zero => rfl
  | succ d ih => simp only [messageBodyK, messageBody, messageBodyWithK_false, ih]

theorem parseMessageK_false (cfg : Cfg) :
    parseMessageK false cfg  = parseMessage cfg  := by
  simp only [parseMessageK, parseMessage, messageBodyK_false]

theorem protoStmtK_false (cfg : Cfg) (cs : List Comment) (t : Token) :
    protoStmtK false cfg cs t = protoStmt cfg cs t := by
  unfold protoStmtK protoStmt
  rw [parseMessageK_false]
  rfl

theorem protoLoopK_false (cfg : Cfg) (n : Nat) (vs : List Visitee) :
    protoLoopK false cfg n vs = protoLoop cfg n vs := by
  induction n generalizing vs with
  | zero => rfl
  | succ n ih => simp only [protoLoopK, protoLoop, protoStmtK_false, ih]

theorem parseProtoBodyK_false (cfg : Cfg) :
    parseProtoBodyK false cfg  = parseProtoBody cfg  := by
  simp only [parseProtoBodyK, parseProtoBody, protoLoopK_false]

theorem parseProtoK_false (cfg : Cfg) :
    parseProtoK false cfg  = parseProto cfg  := by
  simp only [parseProtoK, parseProto, parseProtoBodyK_false]

/-! ## What a calm run returns the model returns -/

/-- The first gives up, or does what the second does. -/
def Below {α : Type} (m m' : P α) : Prop := ∀ l, m l = .halt .fuel ∨ m l = m' l

theorem Below.refl {α : Type} (m : P α) : Below m m := fun _ => .inr rfl

theorem Below.stop {α : Type} (m : P α) : Below (M.stop .fuel) m := fun _ => .inl rfl

theorem Below.bind {α β : Type} {m m' : P α} {f f' : α → P β} (h : Below m m') (hf : ∀ a, Below (f a) (f' a)) :
    Below (m >>= f) (m' >>= f') := by
  intro l
  show M.bind m f l = _ ∨ M.bind m f l = M.bind m' f' l
  unfold M.bind
  rcases h l with e | e
  · exact .inl (by rw [e])
  · rw [e]
    cases m' l with
    | ok a l' => exact hf a l'
    | err e l' => exact .inr rfl
    | halt x => exact .inr rfl

theorem Below.then_ {α β : Type} {m : P α} {f f' : α → P β} (hf : ∀ a, Below (f a) (f' a)) :
    Below (m >>= f) (m >>= f') := (Below.refl m).bind hf

theorem Below.first {α β : Type} {m m' : P α} {f : α → P β} (h : Below m m') :
    Below (m >>= f) (m' >>= f) := h.bind (fun _ => Below.refl _)

theorem Below.attempt {α : Type} {m m' : P α} (h : Below m m') : Below (M.attempt m) (M.attempt m') := by
  intro l
  unfold M.attempt
  rcases h l with e | e
  · exact .inl (by rw [e])
  · exact .inr (by rw [e])

theorem Below.ite {α : Type} {p : Prop} [Decidable p] {m m' n n' : P α} (h : Below m m') (h' : Below n n') :
    Below (if p then m else n) (if p then m' else n') := by
  split <;> assumption

theorem below_message {body body' : P Body} (hb : Below body body') :
    Below (parseMessageWith body) (parseMessageWith body') := by
  unfold parseMessageWith
  exact .then_ fun _ => .then_ fun _ => .then_ fun _ => .then_ fun _ => .first hb

theorem below_group {body body' : P Body} (hb : Below body body') :
    Below (parseGroupFieldWith body) (parseGroupFieldWith body') := by
  unfold parseGroupFieldWith
  repeat' first
    | exact .first hb
    | refine .then_ fun _ => ?_
    | refine .ite (.refl _) ?_

theorem below_field {cfg : Cfg} {body body' : P Body} (hb : Below body body') (cs : List Comment) :
    Below (fieldStmtK true cfg body cs) (fieldStmt cfg body' cs) := by
  unfold fieldStmtK fieldStmt
  refine .then_ fun b => .ite (.bind (below_group hb).attempt fun r => ?_) (.refl _)
  cases r with
  | ok x => exact .refl _
  | error e => exact .stop _

theorem below_stmt {cfg : Cfg} {body body' : P Body} (hb : Below body body') (cs : List Comment) (t : Token) :
    Below (messageStmtK true cfg body cs t) (messageStmt cfg body' cs t) := by
  unfold messageStmtK messageStmt
  cases t <;> dsimp only <;>
    first | with_reducible exact .refl _ | with_reducible exact .first (below_message hb) | exact below_field hb cs

theorem below_loop {cfg : Cfg} {body body' : P Body} (hb : Below body body') (il : Option Comment) (n : Nat) :
    ∀ vs, Below (messageLoopK true cfg body il n vs) (messageLoop cfg body' il n vs) := by
  induction n with
  | zero => exact fun _ => .refl _
  | succ n ih =>
    intro vs
    unfold messageLoopK messageLoop
    exact .then_ fun cs => .then_ fun t => .ite (.refl _)
      (.bind (below_stmt hb cs t) fun _ => .then_ fun _ => ih _)

theorem below_bodyWith {cfg : Cfg} {body body' : P Body} (hb : Below body body') :
    Below (messageBodyWithK true cfg body) (messageBodyWith cfg body') := by
  unfold messageBodyWithK messageBodyWith
  exact .then_ fun _ => .then_ fun il => .then_ fun _ => .then_ fun _ => .ite (.refl _)
    (.then_ fun _ => below_loop hb il _ _)

theorem below_body (cfg : Cfg) (d : Nat) : Below (messageBodyK true cfg d) (messageBody cfg d) := by
  induction d with
  | zero => exact .refl _
  | succ d ih => exact below_bodyWith ih

theorem below_protoStmt {cfg : Cfg} (cs : List Comment) (t : Token) :
    Below (protoStmtK true cfg cs t) (protoStmt cfg cs t) := by
  unfold protoStmtK protoStmt
  cases t <;> dsimp only <;>
    first | with_reducible exact .refl _ | exact .first (below_message (below_body cfg _))

theorem below_protoLoop {cfg : Cfg} (n : Nat) :
    ∀ vs, Below (protoLoopK true cfg n vs) (protoLoop cfg n vs) := by
  induction n with
  | zero => exact fun _ => .refl _
  | succ n ih =>
    intro vs
    unfold protoLoopK protoLoop
    exact .then_ fun cs => .then_ fun b => .ite (.refl _)
      (.then_ fun t => .bind (below_protoStmt cs t) fun _ => .then_ fun _ => ih _)

/-- What a calm run returns, the model returns. -/
theorem parseProtoK_true (cfg : Cfg) : Below (parseProtoK true cfg) (parseProto cfg) := by
  unfold parseProtoK parseProto parseProtoBodyK parseProtoBody
  exact .then_ fun _ => .then_ fun _ => .then_ fun _ => .then_ fun _ => .first (below_protoLoop _ _)

end Parser
end Verif
