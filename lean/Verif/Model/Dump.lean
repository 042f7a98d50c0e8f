import Verif.Model.Json
import Verif.Model.Api
import Verif.Model.Unordered
import Verif.Model.Utf8

/-!
# The dump command

Models `_example/dump/main.go`: the value that `json.Marshal` makes of every struct of the trees (an object with
the exported fields in the order of their declaration; there are no tags, no embedded structs and no marshalers),
and `run`.
-/

namespace Verif

open Json

/-- `meta.Position`: parser/meta/position.go:8-17. -/
def Position.json (x : Position) : Json :=
  obj [(c!"Filename", str x.filename),
    (c!"Offset", num x.offset),
    (c!"Line", num x.line),
    (c!"Column", num x.column)]

/-- `meta.Meta`: parser/meta/meta.go:4-11. -/
def Meta.json (x : Meta) : Json :=
  obj [(c!"Pos", x.pos.json),
    (c!"LastPos", x.lastPos.json)]

/-- comment.go:17-22. -/
def Comment.json (x : Comment) : Json :=
  obj [(c!"Raw", str x.raw),
    (c!"Meta", x.info.json)]

/-- emptyStatement.go:4-7. -/
def EmptyStatement.json (x : EmptyStatement) : Json :=
  obj [(c!"InlineComment", ptr Comment.json x.inlineComment)]

/-- syntax.go:9-21. -/
def Syntax.json (x : Syntax) : Json :=
  obj [(c!"ProtobufVersion", str x.protobufVersion),
    (c!"ProtobufVersionQuote", str x.protobufVersionQuote),
    (c!"Comments", slice Comment.json x.comments),
    (c!"InlineComment", ptr Comment.json x.inlineComment),
    (c!"Meta", x.info.json)]

/-- edition.go:9-21. -/
def Edition.json (x : Edition) : Json :=
  obj [(c!"Edition", str x.edition),
    (c!"EditionQuote", str x.editionQuote),
    (c!"Comments", slice Comment.json x.comments),
    (c!"InlineComment", ptr Comment.json x.inlineComment),
    (c!"Meta", x.info.json)]

/-- A constant of type `ImportModifier`, a `uint`: import.go:9-16. -/
def ImportModifier.json : ImportModifier → Json
  | .none => num 0
  | .public => num 1
  | .weak => num 2

/-- import.go:19-29. -/
def Import.json (x : Import) : Json :=
  obj [(c!"Modifier", x.modifier.json),
    (c!"Location", str x.location),
    (c!"Comments", slice Comment.json x.comments),
    (c!"InlineComment", ptr Comment.json x.inlineComment),
    (c!"Meta", x.info.json)]

/-- package.go:9-18. -/
def Package.json (x : Package) : Json :=
  obj [(c!"Name", str x.name),
    (c!"Comments", slice Comment.json x.comments),
    (c!"InlineComment", ptr Comment.json x.inlineComment),
    (c!"Meta", x.info.json)]

/-- option.go:11-21. -/
def OptionStmt.json (x : OptionStmt) : Json :=
  obj [(c!"OptionName", str x.optionName),
    (c!"Constant", str x.constant),
    (c!"Comments", slice Comment.json x.comments),
    (c!"InlineComment", ptr Comment.json x.inlineComment),
    (c!"Meta", x.info.json)]

/-- field.go:9-12, enum.go:24-27. -/
def FieldOption.json (x : FieldOption) : Json :=
  obj [(c!"OptionName", str x.optionName),
    (c!"Constant", str x.constant)]

/-- field.go:15-30. -/
def Field.json (x : Field) : Json :=
  obj [(c!"IsRepeated", bool x.isRepeated),
    (c!"IsRequired", bool x.isRequired),
    (c!"IsOptional", bool x.isOptional),
    (c!"Type", str x.type),
    (c!"FieldName", str x.fieldName),
    (c!"FieldNumber", str x.fieldNumber),
    (c!"FieldOptions", slice FieldOption.json x.fieldOptions),
    (c!"Comments", slice Comment.json x.comments),
    (c!"InlineComment", ptr Comment.json x.inlineComment),
    (c!"Meta", x.info.json)]

/-- mapField.go:9-22. -/
def MapField.json (x : MapField) : Json :=
  obj [(c!"KeyType", str x.keyType),
    (c!"Type", str x.type),
    (c!"MapName", str x.mapName),
    (c!"FieldNumber", str x.fieldNumber),
    (c!"FieldOptions", slice FieldOption.json x.fieldOptions),
    (c!"Comments", slice Comment.json x.comments),
    (c!"InlineComment", ptr Comment.json x.inlineComment),
    (c!"Meta", x.info.json)]

/-- oneof.go:9-21. -/
def OneofField.json (x : OneofField) : Json :=
  obj [(c!"Type", str x.type),
    (c!"FieldName", str x.fieldName),
    (c!"FieldNumber", str x.fieldNumber),
    (c!"FieldOptions", slice FieldOption.json x.fieldOptions),
    (c!"Comments", slice Comment.json x.comments),
    (c!"InlineComment", ptr Comment.json x.inlineComment),
    (c!"Meta", x.info.json)]

/-- oneof.go:43-57. -/
def Oneof.json (x : Oneof) : Json :=
  obj [(c!"OneofFields", slice OneofField.json x.oneofFields),
    (c!"OneofName", str x.oneofName),
    (c!"Options", slice OptionStmt.json x.options),
    (c!"Comments", slice Comment.json x.comments),
    (c!"InlineComment", ptr Comment.json x.inlineComment),
    (c!"InlineCommentBehindLeftCurly", ptr Comment.json x.inlineCommentBehindLeftCurly),
    (c!"Meta", x.info.json)]

/-- enum.go:30-41. -/
def EnumField.json (x : EnumField) : Json :=
  obj [(c!"Ident", str x.ident),
    (c!"Number", str x.number),
    (c!"EnumValueOptions", slice FieldOption.json x.enumValueOptions),
    (c!"Comments", slice Comment.json x.comments),
    (c!"InlineComment", ptr Comment.json x.inlineComment),
    (c!"Meta", x.info.json)]

/-- reserved.go:20-23. -/
def Range.json (x : Range) : Json :=
  obj [(c!"Begin", str x.begin_),
    (c!"End", str x.end_)]

/-- reserved.go:27-37. -/
def Reserved.json (x : Reserved) : Json :=
  obj [(c!"Ranges", slice Range.json x.ranges),
    (c!"FieldNames", slice str x.fieldNames),
    (c!"Comments", slice Comment.json x.comments),
    (c!"InlineComment", ptr Comment.json x.inlineComment),
    (c!"Meta", x.info.json)]

/-- declaration.go:9-24. -/
def Declaration.json (x : Declaration) : Json :=
  obj [(c!"Number", str x.number),
    (c!"FullName", str x.fullName),
    (c!"Type", str x.type),
    (c!"Reserved", bool x.reserved),
    (c!"Repeated", bool x.repeated),
    (c!"Comments", slice Comment.json x.comments),
    (c!"InlineComment", ptr Comment.json x.inlineComment),
    (c!"InlineCommentBehindLeftCurly", ptr Comment.json x.inlineCommentBehindLeftCurly),
    (c!"Meta", x.info.json)]

/-- extensions.go:9-21. -/
def Extensions.json (x : Extensions) : Json :=
  obj [(c!"Ranges", slice Range.json x.ranges),
    (c!"Declarations", slice Declaration.json x.declarations),
    (c!"Comments", slice Comment.json x.comments),
    (c!"InlineComment", ptr Comment.json x.inlineComment),
    (c!"InlineCommentBehindLeftSquare", ptr Comment.json x.inlineCommentBehindLeftSquare),
    (c!"Meta", x.info.json)]

/-- service.go:9-24. -/
def RPCMessage.json (x : RPCMessage) : Json :=
  obj [(c!"IsStream", bool x.isStream),
    (c!"MessageType", str x.messageType),
    (c!"Meta", x.info.json)]

/-- service.go:27-43. -/
def RPC.json (x : RPC) : Json :=
  obj [(c!"RPCName", str x.rpcName),
    (c!"RPCRequest", x.rpcRequest.json),
    (c!"RPCResponse", x.rpcResponse.json),
    (c!"Options", slice OptionStmt.json x.options),
    (c!"Comments", slice Comment.json x.comments),
    (c!"InlineComment", ptr Comment.json x.inlineComment),
    (c!"InlineCommentBehindLeftCurly", ptr Comment.json x.inlineCommentBehindLeftCurly),
    (c!"EmbeddedComments", slice Comment.json x.embeddedComments),
    (c!"Meta", x.info.json)]

mutual

/-- The value in an interface; nil is `null`.  `Message`: message.go:24-38; `Enum`: enum.go:63-77; `Service`:
service.go:65-78; `Extend`: extend.go:24-37; `GroupField`: groupField.go:12-31. -/
def Visitee.json : Visitee → Json
  | .nil => null
  | .comment x => x.json
  | .importStmt x => x.json
  | .package x => x.json
  | .option x => x.json
  | .message ⟨nm, body, cs, ic, icl, i⟩ =>
    obj [(c!"MessageName", str nm), (c!"MessageBody", bodyJson body), (c!"Comments", slice Comment.json cs),
      (c!"InlineComment", ptr Comment.json ic), (c!"InlineCommentBehindLeftCurly", ptr Comment.json icl),
      (c!"Meta", i.json)]
  | .enum ⟨nm, body, cs, ic, icl, i⟩ =>
    obj [(c!"EnumName", str nm), (c!"EnumBody", bodyJson body), (c!"Comments", slice Comment.json cs),
      (c!"InlineComment", ptr Comment.json ic), (c!"InlineCommentBehindLeftCurly", ptr Comment.json icl),
      (c!"Meta", i.json)]
  | .service ⟨nm, body, cs, ic, icl, i⟩ =>
    obj [(c!"ServiceName", str nm), (c!"ServiceBody", bodyJson body), (c!"Comments", slice Comment.json cs),
      (c!"InlineComment", ptr Comment.json ic), (c!"InlineCommentBehindLeftCurly", ptr Comment.json icl),
      (c!"Meta", i.json)]
  | .extend ⟨nm, body, cs, ic, icl, i⟩ =>
    obj [(c!"MessageType", str nm), (c!"ExtendBody", bodyJson body), (c!"Comments", slice Comment.json cs),
      (c!"InlineComment", ptr Comment.json ic), (c!"InlineCommentBehindLeftCurly", ptr Comment.json icl),
      (c!"Meta", i.json)]
  | .emptyStatement x => x.json
  | .field x => x.json
  | .enumField x => x.json
  | .oneof x => x.json
  | .mapField x => x.json
  | .groupField ⟨a, b, c, nm, body, n, cs, ic, icl, i⟩ =>
    obj [(c!"IsRepeated", bool a), (c!"IsRequired", bool b), (c!"IsOptional", bool c), (c!"GroupName", str nm),
      (c!"MessageBody", bodyJson body), (c!"FieldNumber", str n), (c!"Comments", slice Comment.json cs),
      (c!"InlineComment", ptr Comment.json ic), (c!"InlineCommentBehindLeftCurly", ptr Comment.json icl),
      (c!"Meta", i.json)]
  | .reserved x => x.json
  | .extensions x => x.json
  | .rpc x => x.json

/-- A `[]Visitee`; see `slice`. -/
def bodyJson : List Visitee → Json
  | [] => null
  | x :: xs => arr (x.json :: bodyItems xs)

/-- The items behind the first. -/
def bodyItems : List Visitee → List Json
  | [] => []
  | x :: xs => x.json :: bodyItems xs

end

/-- proto.go:6-18. -/
def Proto.json (x : Proto) : Json :=
  obj [(c!"Syntax", ptr Syntax.json x.syntax_), (c!"Edition", ptr Edition.json x.edition),
    (c!"ProtoBody", bodyJson x.protoBody), (c!"Meta", obj [(c!"Filename", str x.metaFilename)])]

namespace Unordered

/-- enum.go:11-16. -/
def EnumBody.json (x : EnumBody) : Json :=
  obj [(c!"Options", slice OptionStmt.json x.options),
    (c!"EnumFields", slice EnumField.json x.enumFields),
    (c!"Reserveds", slice Reserved.json x.reserveds),
    (c!"EmptyStatements", slice EmptyStatement.json x.emptyStatements)]

/-- enum.go:19-31. -/
def UEnum.json (x : UEnum) : Json :=
  obj [(c!"EnumName", str x.enumName),
    (c!"EnumBody", x.enumBody.json),
    (c!"Comments", slice Comment.json x.comments),
    (c!"InlineComment", ptr Comment.json x.inlineComment),
    (c!"InlineCommentBehindLeftCurly", ptr Comment.json x.inlineCommentBehindLeftCurly),
    (c!"Meta", x.info.json)]

/-- extend.go:11-14. -/
def ExtendBody.json (x : ExtendBody) : Json :=
  obj [(c!"Fields", slice Field.json x.fields),
    (c!"EmptyStatements", slice EmptyStatement.json x.emptyStatements)]

/-- extend.go:17-29. -/
def UExtend.json (x : UExtend) : Json :=
  obj [(c!"MessageType", str x.messageType),
    (c!"ExtendBody", x.extendBody.json),
    (c!"Comments", slice Comment.json x.comments),
    (c!"InlineComment", ptr Comment.json x.inlineComment),
    (c!"InlineCommentBehindLeftCurly", ptr Comment.json x.inlineCommentBehindLeftCurly),
    (c!"Meta", x.info.json)]

/-- service.go:11-14. -/
def ServiceBody.json (x : ServiceBody) : Json :=
  obj [(c!"Options", slice OptionStmt.json x.options),
    (c!"RPCs", slice RPC.json x.rpcs)]

/-- service.go:17-29. -/
def UService.json (x : UService) : Json :=
  obj [(c!"ServiceName", str x.serviceName),
    (c!"ServiceBody", x.serviceBody.json),
    (c!"Comments", slice Comment.json x.comments),
    (c!"InlineComment", ptr Comment.json x.inlineComment),
    (c!"InlineCommentBehindLeftCurly", ptr Comment.json x.inlineCommentBehindLeftCurly),
    (c!"Meta", x.info.json)]

mutual

/-- message.go:11-38. -/
def UMessage.json : UMessage → Json
  | .mk nm ⟨fs, es, ms, os, ofs, mps, gs, rs, xs, em, ext⟩ cs ic icl i =>
    obj [(c!"MessageName", str nm),
      (c!"MessageBody", obj [(c!"Fields", slice Field.json fs), (c!"Enums", slice UEnum.json es),
        (c!"Messages", messagesJson ms), (c!"Options", slice OptionStmt.json os), (c!"Oneofs", slice Oneof.json ofs),
        (c!"Maps", slice MapField.json mps), (c!"Groups", slice (fun g => Visitee.json (.groupField g)) gs),
        (c!"Reserves", slice Reserved.json rs), (c!"Extends", slice (fun e => Visitee.json (.extend e)) xs),
        (c!"EmptyStatements", slice EmptyStatement.json em), (c!"Extensions", slice Extensions.json ext)]),
      (c!"Comments", slice Comment.json cs), (c!"InlineComment", ptr Comment.json ic),
      (c!"InlineCommentBehindLeftCurly", ptr Comment.json icl), (c!"Meta", i.json)]

/-- A `[]*Message`; see `slice`. -/
def messagesJson : List UMessage → Json
  | [] => null
  | x :: xs => arr (x.json :: messageItems xs)

/-- The items behind the first. -/
def messageItems : List UMessage → List Json
  | [] => []
  | x :: xs => x.json :: messageItems xs

end

/-- proto.go:10-19. -/
def ProtoBody.json (x : ProtoBody) : Json :=
  obj [(c!"Imports", slice Import.json x.imports),
    (c!"Packages", slice Package.json x.packages),
    (c!"Options", slice OptionStmt.json x.options),
    (c!"Messages", messagesJson x.messages),
    (c!"Extends", slice UExtend.json x.extends_),
    (c!"Enums", slice UEnum.json x.enums),
    (c!"Services", slice UService.json x.services),
    (c!"EmptyStatements", slice EmptyStatement.json x.emptyStatements)]

/-- proto.go:22-25. -/
def UProto.json (x : UProto) : Json :=
  obj [(c!"Syntax", ptr Syntax.json x.syntax_),
    (c!"ProtoBody", x.protoBody.json)]

end Unordered

/-! ## The command -/

namespace Dump

/-- The flags: main.go:14-19. -/
structure Flags where
  proto : Str := c!"_testdata/simple.proto"
  debug : Bool := false
  permissive : Bool := true
  unordered : Bool := false
  deriving DecidableEq, Repr

/-- `filepath.Base` on Unix: the trailing slashes are removed, then all up to the last slash. -/
def base (path : Str) : Str :=
  if path = [] then c!"."
  else
    let p := (path.reverse.dropWhile (· = '/')).takeWhile (· ≠ '/')
    if p = [] then c!"/" else p.reverse

/-- What is written to standard error by `run`: main.go:26, 42, 51, 58. -/
inductive Message where
  | failedToOpen (path : Str)
  | failedToParse (e : Err)
  | failedToInterpret (e : Unordered.UErr)
  | failedToMarshal

/-- What a run does: it ends with an exit code, having written a text to standard output and messages to standard
error; or it panics, or needs more steps. -/
inductive Ran where
  | exit (code : Nat) (out : Str) (err : List Message)
  | panic
  | more

/-- main.go:56-61.  A failure to marshal does not change the exit code. -/
def print (v : Json) : Ran :=
  match marshalIndent v with
  | none => .exit 0 [] [.failedToMarshal]
  | some s => .exit 0 s []

/-- The options that `run` passes: main.go:37-39. -/
def options (flags : Flags) : List ParseOpt :=
  [withDebug flags.debug, withPermissive flags.permissive, withFilename (base flags.proto)]

/-- `run`: main.go:21-62.  The file is `none` if it cannot be opened, and else its bytes; closing it does not fail,
and reading it neither (a read error ends the text, see `Verif/Model/Reader.lean`).  What the debug mode and the lexer
write to standard error is not part of the result. -/
def run (fuel : Nat) (flags : Flags) (file : Option (List Nat)) : Ran :=
  match file with
  | .none => .exit 1 [] [.failedToOpen flags.proto]
  | some bytes =>
    match Utf8.parseBytes fuel bytes (options flags) with
    | .more => .more
    | .panic => .panic
    | .error e => .exit 1 [] [.failedToParse e]
    | .ok got =>
      if flags.unordered then
        match Unordered.interpretProto got with
        | .error e => .exit 1 [] [.failedToInterpret e]
        | .ok v => print v.json
      else print got.json

end Dump
end Verif
