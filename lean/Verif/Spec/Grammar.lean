import Verif.Spec.Layout
import Verif.Model.Ast

/-!
# The grammar, as a relation between trees and token lists

For every kind of node, which token lists it stands for.  A token is a spelling with a position; the
positions are only used to say that the `Meta` of a node delimits its tokens.

`G.permissive` adds the constructs of the permissive mode.  `G.loose` adds what the code accepts
beyond the grammar and drops from the tree: any token but a comma in place of a list's closing bracket, any
token but a string in place of an import modifier, the beginning of ranges before reserved names.  `G.junk`
adds the beginning of a field or of an enum value before an empty statement, which the code drops as well.
-/

namespace Verif.Spec

structure Gram where
  permissive : Bool
  loose : Bool
  junk : Bool
  deriving DecidableEq, Repr

/-! ## Names -/

/-- `fullIdent = ident { "." ident }` -/
inductive FullIdent : Str → List Str → Prop
  | one (w : Str) : Word w → FullIdent w [w]
  | more (w s : Str) (ws : List Str) : Word w → FullIdent s ws →
      FullIdent (w ++ c!"." ++ s) (w :: c!"." :: ws)

/-- `messageType = [ "." ] { ident "." } messageName` -/
inductive MessageType : Str → List Str → Prop
  | plain (s : Str) (ws : List Str) : FullIdent s ws → MessageType s ws
  | dot (s : Str) (ws : List Str) : FullIdent s ws → MessageType (c!"." ++ s) (c!"." :: ws)

/-- The scalar types. -/
def scalars : List Str :=
  [c!"double", c!"float", c!"int32", c!"int64", c!"uint32", c!"uint64", c!"sint32", c!"sint64",
   c!"fixed32", c!"fixed64", c!"sfixed32", c!"sfixed64", c!"bool", c!"string", c!"bytes"]

/-- The types of map keys. -/
def keyTypes : List Str :=
  [c!"int32", c!"int64", c!"uint32", c!"uint64", c!"sint32", c!"sint64", c!"fixed32", c!"fixed64",
   c!"sfixed32", c!"sfixed64", c!"bool", c!"string"]

/-- `type`: a scalar or a message type. -/
inductive TypeName : Str → List Str → Prop
  | scalar (s : Str) : s ∈ scalars → TypeName s [s]
  | named (s : Str) (ws : List Str) : MessageType s ws → (∀ w ∈ ws.head?, w ∉ scalars) →
      TypeName s ws

/-- `( ident | "(" [ "." ] fullIdent ")" )`; the dot only in permissive mode. -/
inductive NamePart (G : Gram) : Str → List Str → Prop
  | ident (w : Str) : Word w → NamePart G w [w]
  | paren (s : Str) (ws : List Str) : FullIdent s ws →
      NamePart G (c!"(" ++ s ++ c!")") (c!"(" :: ws ++ [c!")"])
  | dotted (s : Str) (ws : List Str) : G.permissive = true → FullIdent s ws →
      NamePart G (c!"(" ++ c!"." ++ s ++ c!")") (c!"(" :: c!"." :: ws ++ [c!")"])

/-- `optionName = part { "." part }` -/
inductive OptionName (G : Gram) : Str → List Str → Prop
  | one (s : Str) (ws : List Str) : NamePart G s ws → OptionName G s ws
  | more (s : Str) (ws : List Str) (s' : Str) (ws' : List Str) : OptionName G s ws →
      NamePart G s' ws' → OptionName G (s ++ c!"." ++ s') (ws ++ c!"." :: ws')

/-! ## Constants -/

def Bool_ (w : Str) : Prop := w = c!"true" ∨ w = c!"false"
def Quote (w : Str) : Prop := w = c!"'" ∨ w = c!"\""
def Number (w : Str) : Prop := IntLit w ∨ FloatLit w

/-- The runes of a text between the first and the last that differ from `q`. -/
def stripQuotes (q : Char) (s : Str) : Str :=
  ((s.dropWhile (· = q)).reverse.dropWhile (· = q)).reverse

/-- The literal that permissive mode makes of adjacent string literals. -/
def joinStrings (ws : List Str) : Str :=
  let q := if (ws.headD []).head? = some '"' then '"' else '\''
  [q] ++ (ws.map (stripQuotes q)).flatten ++ [q]

mutual
/-- `constant = fullIdent | [ "-" | "+" ] number | strLit | boolLit`; in permissive mode adjacent
strings are one constant, and there are message and list literals. -/
inductive Constant (G : Gram) : Str → List Str → Prop
  | name (s : Str) (ws : List Str) : FullIdent s ws →
      (∀ w ∈ ws.head?, w ≠ c!"true" ∧ w ≠ c!"false" ∧ w ≠ c!"inf" ∧ w ≠ c!"nan") → Constant G s ws
  | bool (w : Str) : Bool_ w → Constant G w [w]
  | number (w : Str) : Number w → Constant G w [w]
  | signed (s w : Str) : s = c!"-" ∨ s = c!"+" → Number w → Constant G (s ++ w) [s, w]
  | str (w : Str) : G.permissive = false → StrLit w → Constant G w [w]
  | strs (ws : List Str) : G.permissive = true → ws ≠ [] → (∀ w ∈ ws, StrLit w) →
      Constant G (joinStrings ws) ws
  | emptyMsg : G.permissive = true → Constant G c!"{}" [c!"{", c!"}"]
  | emptyList : G.permissive = true → Constant G c!"[]" [c!"[", c!"]"]
  /-- A list; the closing token is not checked, but it is no comma. -/
  | list (s : Str) (ws : List Str) (close : Str) : G.permissive = true →
      ConstantList G s ws → close = c!"]" ∨ (G.loose = true ∧ close ≠ c!",") →
      Constant G (c!"[" ++ s ++ c!"]") (c!"[" :: ws ++ [close])
  | msg (s : Str) (ws : List Str) : G.permissive = true → Entries G s ws →
      Constant G (c!"{" ++ s) (c!"{" :: ws)

/-- `constant { "," constant }` -/
inductive ConstantList (G : Gram) : Str → List Str → Prop
  | one (s : Str) (ws : List Str) : Constant G s ws → ConstantList G s ws
  | more (s : Str) (ws : List Str) (s' : Str) (ws' : List Str) : ConstantList G s ws →
      Constant G s' ws' → ConstantList G (s ++ c!"," ++ s') (ws ++ c!"," :: ws')

/-- A field of a message literal: `ident [ ":" ] constant`, where only a message may follow without
colon, and where a message after a colon may be followed by a semicolon of its own.  The flag says that
a semicolon that follows would be the field's own. -/
inductive Entry (G : Gram) : Bool → Str → List Str → Prop
  | colon (w s : Str) (ws : List Str) : Word w → Constant G s ws →
      Entry G (decide (ws.head? = some c!"{")) (w ++ c!":" ++ s) (w :: c!":" :: ws)
  | brace (w s : Str) (ws : List Str) : Word w → Constant G s ws → ws.head? = some c!"{" →
      Entry G false (w ++ s) (w :: ws)
  | semi (w s : Str) (ws : List Str) : Word w → Constant G s ws → ws.head? = some c!"{" →
      Entry G false (w ++ c!":" ++ s ++ c!";") (w :: c!":" :: ws ++ [c!";"])

/-- The fields of a message literal and the closing brace; the separator may be missing, and is
then a newline in the text. -/
inductive Entries (G : Gram) : Str → List Str → Prop
  | last (b : Bool) (s : Str) (ws : List Str) : Entry G b s ws →
      Entries G (s ++ c!"}") (ws ++ [c!"}"])
  | lastSep (b : Bool) (s : Str) (ws : List Str) (sep : Str) : Entry G b s ws →
      sep = c!"," ∨ (sep = c!";" ∧ b = false) → Entries G (s ++ sep ++ c!"}") (ws ++ [sep, c!"}"])
  | sep (b : Bool) (s : Str) (ws : List Str) (sep s' : Str) (ws' : List Str) : Entry G b s ws →
      sep = c!"," ∨ (sep = c!";" ∧ b = false) → Entries G s' ws' →
      Entries G (s ++ sep ++ s') (ws ++ sep :: ws')
  | blank (b : Bool) (s : Str) (ws : List Str) (s' : Str) (ws' : List Str) : Entry G b s ws →
      Entries G s' ws' → Entries G (s ++ c!"\n" ++ s') (ws ++ ws')
end

/-! ## Statements that are not nested -/

/-- The positions of a node delimit its tokens, and the spellings are `ws`. -/
def Written (ts : List Tok) (info : Meta) (ws : List Str) : Prop := words ts = ws ∧ Spans ts info

/-- `syntax = "syntax" "=" quote ( "proto2" | "proto3" ) quote ";"`, where the quotes are tokens of
their own. -/
def SyntaxToks (x : Syntax) (ts : List Tok) : Prop :=
  (x.protobufVersion = c!"proto2" ∨ x.protobufVersion = c!"proto3") ∧
  ∃ lq tq, Quote lq ∧ Quote tq ∧ x.protobufVersionQuote = lq ++ x.protobufVersion ++ tq ∧
    Written ts x.info [c!"syntax", c!"=", lq, x.protobufVersion, tq, c!";"]

/-- `edition = "edition" "=" quote intLit quote ";"` -/
def EditionToks (x : Edition) (ts : List Tok) : Prop :=
  IntLit x.edition ∧
  ∃ lq tq, Quote lq ∧ Quote tq ∧ x.editionQuote = lq ++ x.edition ++ tq ∧
    Written ts x.info [c!"edition", c!"=", lq, x.edition, tq, c!";"]

/-- `package = "package" fullIdent ";"` -/
def PackageToks (x : Package) (ts : List Tok) : Prop :=
  ∃ ws, FullIdent x.name ws ∧ Written ts x.info (c!"package" :: ws ++ [c!";"])

/-- The modifier of an import. -/
inductive Modifier (G : Gram) : ImportModifier → List Str → Prop
  | none : Modifier G .none []
  | «public» : Modifier G .public [c!"public"]
  | weak : Modifier G .weak [c!"weak"]
  | junk (w : Str) : G.loose = true → w ≠ c!"public" → w ≠ c!"weak" → ¬ StrLit w → Modifier G .none [w]

/-- `import = "import" [ "weak" | "public" ] strLit ";"` -/
def ImportToks (G : Gram) (x : Import) (ts : List Tok) : Prop :=
  StrLit x.location ∧ ∃ ms, Modifier G x.modifier ms ∧
    Written ts x.info (c!"import" :: ms ++ [x.location, c!";"])

/-- `option = "option" optionName "=" constant ";"` -/
def OptionToks (G : Gram) (x : OptionStmt) (ts : List Tok) : Prop :=
  ∃ ns cs, OptionName G x.optionName ns ∧ Constant G x.constant cs ∧
    Written ts x.info (c!"option" :: ns ++ c!"=" :: cs ++ [c!";"])

/-- `fieldOption = optionName "=" constant` -/
def FieldOptionToks (G : Gram) (x : FieldOption) (ws : List Str) : Prop :=
  ∃ ns cs, OptionName G x.optionName ns ∧ Constant G x.constant cs ∧ ws = ns ++ c!"=" :: cs

/-- `fieldOption { "," fieldOption }` -/
inductive FieldOptionList (G : Gram) : List FieldOption → List Str → Prop
  | one (x : FieldOption) (ws : List Str) : FieldOptionToks G x ws → FieldOptionList G [x] ws
  | more (xs : List FieldOption) (ws : List Str) (x : FieldOption) (ws' : List Str) :
      FieldOptionList G xs ws → FieldOptionToks G x ws' →
      FieldOptionList G (xs ++ [x]) (ws ++ c!"," :: ws')

/-- `[ "[" fieldOptions "]" ]` -/
inductive FieldOptions (G : Gram) : List FieldOption → List Str → Prop
  | none : FieldOptions G [] []
  | some (xs : List FieldOption) (ws : List Str) : FieldOptionList G xs ws →
      FieldOptions G xs (c!"[" :: ws ++ [c!"]"])

/-- `[ "repeated" | "required" | "optional" ]` and the three flags. -/
inductive Labelled : Bool → Bool → Bool → List Str → Prop
  | none : Labelled false false false []
  | repeated : Labelled true false false [c!"repeated"]
  | required : Labelled false true false [c!"required"]
  | optional : Labelled false false true [c!"optional"]

/-- The words that are not read as the type of an unlabelled field. -/
def labelWords : List Str := [c!"repeated", c!"required", c!"optional"]

/-- `field = [ label ] type fieldName "=" fieldNumber [ "[" fieldOptions "]" ] ";"` -/
def FieldToks (G : Gram) (x : Field) (ts : List Tok) : Prop :=
  Word x.fieldName ∧ IntLit x.fieldNumber ∧
  ∃ ls ws os, Labelled x.isRepeated x.isRequired x.isOptional ls ∧ TypeName x.type ws ∧
    (ls = [] → ∀ w ∈ ws.head?, w ∉ labelWords) ∧ FieldOptions G x.fieldOptions os ∧
    Written ts x.info (ls ++ ws ++ [x.fieldName, c!"=", x.fieldNumber] ++ os ++ [c!";"])

/-- `mapField = "map" "<" keyType "," type ">" mapName "=" fieldNumber [ .. ] ";"` -/
def MapFieldToks (G : Gram) (x : MapField) (ts : List Tok) : Prop :=
  x.keyType ∈ keyTypes ∧ Word x.mapName ∧ IntLit x.fieldNumber ∧
  ∃ ws os, TypeName x.type ws ∧ FieldOptions G x.fieldOptions os ∧
    Written ts x.info ([c!"map", c!"<", x.keyType, c!","] ++ ws ++
      [c!">", x.mapName, c!"=", x.fieldNumber] ++ os ++ [c!";"])

/-- `oneofField = type fieldName "=" fieldNumber [ "[" fieldOptions "]" ] ";"` -/
def OneofFieldToks (G : Gram) (x : OneofField) (ts : List Tok) : Prop :=
  Word x.fieldName ∧ IntLit x.fieldNumber ∧
  ∃ ws os, TypeName x.type ws ∧ (∀ w ∈ ws.head?, w ≠ c!"option") ∧
    FieldOptions G x.fieldOptions os ∧
    Written ts x.info (ws ++ [x.fieldName, c!"=", x.fieldNumber] ++ os ++ [c!";"])

/-- The elements of a oneof, in source order: options, fields and semicolons; it neither is empty nor
ends with a semicolon of its own. -/
inductive OneofItems (G : Gram) : List OneofField → List OptionStmt → List Tok → Prop
  | lastField (x : OneofField) (ts : List Tok) : OneofFieldToks G x ts → OneofItems G [x] [] ts
  | lastOption (x : OptionStmt) (ts : List Tok) : OptionToks G x ts → OneofItems G [] [x] ts
  | field (x : OneofField) (ts : List Tok) (fs : List OneofField) (os : List OptionStmt)
      (ts' : List Tok) : OneofFieldToks G x ts → OneofItems G fs os ts' →
      OneofItems G (x :: fs) os (ts ++ ts')
  | option (x : OptionStmt) (ts : List Tok) (fs : List OneofField) (os : List OptionStmt)
      (ts' : List Tok) : OptionToks G x ts → OneofItems G fs os ts' →
      OneofItems G fs (x :: os) (ts ++ ts')
  | empty (t : Tok) (fs : List OneofField) (os : List OptionStmt) (ts : List Tok) :
      t.text = c!";" → OneofItems G fs os ts → OneofItems G fs os (t :: ts)

/-- The end of a block: a right curly, in permissive mode with an optional semicolon. -/
def Close (G : Gram) (ts : List Tok) : Prop :=
  words ts = [c!"}"] ∨ (G.permissive = true ∧ words ts = [c!"}", c!";"])

/-- `oneof = "oneof" oneofName "{" items "}"` -/
def OneofToks (G : Gram) (x : Oneof) (ts : List Tok) : Prop :=
  Word x.oneofName ∧ ∃ hd is cl, words hd = [c!"oneof", x.oneofName, c!"{"] ∧
    OneofItems G x.oneofFields x.options is ∧ Close G cl ∧ ts = hd ++ is ++ cl ∧ Spans ts x.info

/-- `range = intLit [ "to" ( intLit | "max" ) ]` -/
inductive RangeToks : Range → List Str → Prop
  | one (w : Str) : IntLit w → RangeToks ⟨w, []⟩ [w]
  | to (w e : Str) : IntLit w → IntLit e ∨ e = c!"max" → RangeToks ⟨w, e⟩ [w, c!"to", e]

/-- `ranges = range { "," range }` -/
inductive RangesToks : List Range → List Str → Prop
  | one (r : Range) (ws : List Str) : RangeToks r ws → RangesToks [r] ws
  | more (rs : List Range) (ws : List Str) (r : Range) (ws' : List Str) : RangesToks rs ws →
      RangeToks r ws' → RangesToks (rs ++ [r]) (ws ++ c!"," :: ws')

/-- A reserved name. -/
def ReservedName (w : Str) : Prop := StrLit w ∨ Word w

/-- `fieldNames = fieldName { [ "," ] fieldName }` -/
inductive NamesToks : List Str → List Str → Prop
  | one (w : Str) : ReservedName w → NamesToks [w] [w]
  | comma (ns ws : List Str) (w : Str) : NamesToks ns ws → ReservedName w →
      NamesToks (ns ++ [w]) (ws ++ [c!",", w])
  | blank (ns ws : List Str) (w : Str) : NamesToks ns ws → ReservedName w →
      NamesToks (ns ++ [w]) (ws ++ [w])

/-- The beginning of ranges, up to where there should be a range but is none: a comma comes last, or `to` and a
token that is not `max`. -/
inductive RangesCut : List Str → Prop
  | comma (rs : List Range) (ws : List Str) : RangesToks rs ws → RangesCut (ws ++ [c!","])
  | to (w e : Str) : IntLit w → e ≠ c!"max" → RangesCut [w, c!"to", e]
  | commaTo (rs : List Range) (ws : List Str) (w e : Str) : RangesToks rs ws → IntLit w → e ≠ c!"max" →
      RangesCut (ws ++ [c!",", w, c!"to", e])

/-- `reserved = "reserved" ( ranges | fieldNames ) ";"` -/
def ReservedToks (G : Gram) (x : Reserved) (ts : List Tok) : Prop :=
  (∃ ws, RangesToks x.ranges ws ∧ x.fieldNames = [] ∧
    Written ts x.info (c!"reserved" :: ws ++ [c!";"])) ∨
  (∃ js ws, NamesToks x.fieldNames ws ∧ x.ranges = [] ∧ (js = [] ∨ (G.loose = true ∧ RangesCut js)) ∧
    Written ts x.info (c!"reserved" :: js ++ ws ++ [c!";"]))

/-- An item of a declaration. -/
inductive DeclItem
  | number (w : Str) | fullName (w : Str) | type (w : Str) | repeated (w : Str) | reserved (w : Str)
  deriving DecidableEq, Repr

/-- `key ":" value` -/
inductive DeclItemToks : DeclItem → List Str → Prop
  | number (w : Str) : IntLit w → DeclItemToks (.number w) [c!"number", c!":", w]
  | fullName (w : Str) : StrLit w → DeclItemToks (.fullName w) [c!"full_name", c!":", w]
  | type (w : Str) : StrLit w → DeclItemToks (.type w) [c!"type", c!":", w]
  | repeated (w : Str) : Word w → DeclItemToks (.repeated w) [c!"repeated", c!":", w]
  | reserved (w : Str) : Word w → DeclItemToks (.reserved w) [c!"reserved", c!":", w]

/-- Items, each with an optional comma before it. -/
inductive DeclItems : List DeclItem → List Str → Prop
  | nil : DeclItems [] []
  | plain (i : DeclItem) (ws : List Str) (is : List DeclItem) (ws' : List Str) : DeclItemToks i ws →
      DeclItems is ws' → DeclItems (i :: is) (ws ++ ws')
  | comma (i : DeclItem) (ws : List Str) (is : List DeclItem) (ws' : List Str) : DeclItemToks i ws →
      DeclItems is ws' → DeclItems (i :: is) (c!"," :: ws ++ ws')

/-- The value of the last item of a kind. -/
def lastItem {α : Type} (sel : DeclItem → Option α) (default : α) (is : List DeclItem) : α :=
  ((is.filterMap sel).getLast?).getD default

def selNumber : DeclItem → Option Str | .number w => some w | _ => none
def selFullName : DeclItem → Option Str | .fullName w => some w | _ => none
def selType : DeclItem → Option Str | .type w => some w | _ => none
def selRepeated : DeclItem → Option Bool | .repeated w => some (decide (w = c!"true")) | _ => none
def selReserved : DeclItem → Option Bool | .reserved w => some (decide (w = c!"true")) | _ => none

/-- `declaration = "declaration" "=" "{" items "}"`; the last value of each key counts. -/
def DeclarationToks (x : Declaration) (ts : List Tok) : Prop :=
  ∃ is ws, DeclItems is ws ∧
    x.number = lastItem selNumber [] is ∧ x.fullName = lastItem selFullName [] is ∧
    x.type = lastItem selType [] is ∧ x.repeated = lastItem selRepeated false is ∧
    x.reserved = lastItem selReserved false is ∧
    Written ts x.info ([c!"declaration", c!"=", c!"{"] ++ ws ++ [c!"}"])

/-- `declaration { "," declaration }` -/
inductive DeclarationList : List Declaration → List Tok → Prop
  | one (x : Declaration) (ts : List Tok) : DeclarationToks x ts → DeclarationList [x] ts
  | more (x : Declaration) (ts : List Tok) (t : Tok) (xs : List Declaration) (ts' : List Tok) :
      DeclarationToks x ts → t.text = c!"," → DeclarationList xs ts' →
      DeclarationList (x :: xs) (ts ++ t :: ts')

/-- `[ "[" declarations "]" ]` -/
inductive Declarations : List Declaration → List Tok → Prop
  | none : Declarations [] []
  | some (xs : List Declaration) (a : Tok) (ts : List Tok) (b : Tok) : a.text = c!"[" →
      DeclarationList xs ts → b.text = c!"]" → Declarations xs (a :: ts ++ [b])

/-- `extensions = "extensions" ranges [ "[" declarations "]" ] ";"` -/
def ExtensionsToks (x : Extensions) (ts : List Tok) : Prop :=
  ∃ a rs ds b, a.text = c!"extensions" ∧ RangesToks x.ranges (words rs) ∧
    Declarations x.declarations ds ∧ b.text = c!";" ∧ ts = a :: rs ++ ds ++ [b] ∧ Spans ts x.info

/-- `enumField = ident "=" [ "-" ] intLit [ "[" enumValueOption { .. } "]" ] ";"` -/
def EnumFieldToks (G : Gram) (x : EnumField) (ts : List Tok) : Prop :=
  Word x.ident ∧ ∃ sg w os, (sg = [] ∨ sg = [c!"-"]) ∧ IntLit w ∧ x.number = sg.flatten ++ w ∧
    FieldOptions G x.enumValueOptions os ∧
    Written ts x.info (x.ident :: c!"=" :: sg ++ w :: os ++ [c!";"])

/-- `"(" [ "stream" ] messageType ")"` -/
def RPCMessageToks (x : RPCMessage) (ts : List Tok) : Prop :=
  ∃ ws, MessageType x.messageType ws ∧ (x.isStream = false → ws.head? ≠ some c!"stream") ∧
    Written ts x.info (c!"(" :: (if x.isStream then [c!"stream"] else []) ++ ws ++ [c!")"])

/-- `{ option | ";" }` -/
inductive RPCOptions (G : Gram) : List OptionStmt → List Tok → Prop
  | nil : RPCOptions G [] []
  | option (x : OptionStmt) (ts : List Tok) (xs : List OptionStmt) (ts' : List Tok) :
      OptionToks G x ts → RPCOptions G xs ts' → RPCOptions G (x :: xs) (ts ++ ts')
  | empty (t : Tok) (xs : List OptionStmt) (ts : List Tok) : t.text = c!";" → RPCOptions G xs ts →
      RPCOptions G xs (t :: ts)

/-- `rpc = "rpc" rpcName request "returns" response ( "{" options "}" | ";" )` -/
def RPCToks (G : Gram) (x : RPC) (ts : List Tok) : Prop :=
  Word x.rpcName ∧ ∃ hd rq rt rs tl, words hd = [c!"rpc", x.rpcName] ∧ RPCMessageToks x.rpcRequest rq ∧
    rt.text = c!"returns" ∧ RPCMessageToks x.rpcResponse rs ∧
    ((words tl = [c!";"] ∧ x.options = []) ∨
      ∃ a os cl, a.text = c!"{" ∧ RPCOptions G x.options os ∧ Close G cl ∧ tl = a :: os ++ cl) ∧
    ts = hd ++ rq ++ rt :: rs ++ tl ∧ Spans ts x.info

/-! ## Bodies -/

/-- Where a body element stands. -/
inductive Ctx | file | message | enum | extend | service
  deriving DecidableEq, Repr

/-- The words that start another statement than a field in a message body. -/
def messageWords : List Str :=
  [c!"enum", c!"message", c!"option", c!"oneof", c!"map", c!"extend", c!"reserved", c!"extensions"]

/-- An upper-case ASCII letter. -/
def Capital (c : Char) : Prop := c ∈ c!"ABCDEFGHIJKLMNOPQRSTUVWXYZ"

/-- If a token list ends with a right curly, the next does not start with a semicolon. -/
def Tight (ts ts' : List Tok) : Prop :=
  (words ts).getLast? = some c!"}" → (words ts').head? ≠ some c!";"

/-- The beginning of a field (in an enum: of an enum value) that is not the whole of it, and that no other
statement starts like. -/
def Cut (G : Gram) (k : Ctx) (ws : List Str) : Prop :=
  ∃ ts more, words ts = ws ++ more ∧ more ≠ [] ∧
    match k with
    | .message => (∃ x, FieldToks G x ts) ∧ ∀ w ∈ ws.head?, w ∉ messageWords
    | .extend => ∃ x, FieldToks G x ts
    | .enum => (∃ x, EnumFieldToks G x ts) ∧ ∀ w ∈ ws.head?, w ≠ c!"option" ∧ w ≠ c!"reserved"
    | _ => False

mutual

/-- The token lists of a body element. -/
inductive Toks (G : Gram) : Ctx → Visitee → List Tok → Prop
  | comment (k : Ctx) (c : Verif.Comment) : Toks G k (.comment c) []
  | empty (k : Ctx) (e : EmptyStatement) (t : Tok) : t.text = c!";" → Toks G k (.emptyStatement e) [t]
  /-- The beginning of a field before a semicolon. -/
  | junk (k : Ctx) (e : EmptyStatement) (ts : List Tok) (t : Tok) : G.junk = true →
      Cut G k (words ts) → t.text = c!";" →
      Toks G k (.emptyStatement e) (ts ++ [t])
  /-- The nil element that follows an empty statement of a file. -/
  | nil : Toks G .file .nil []
  | importStmt (x : Import) (ts : List Tok) : ImportToks G x ts → Toks G .file (.importStmt x) ts
  | package (x : Package) (ts : List Tok) : PackageToks x ts → Toks G .file (.package x) ts
  | option (k : Ctx) (x : OptionStmt) (ts : List Tok) : k ≠ .extend → OptionToks G x ts →
      Toks G k (.option x) ts
  | message (k : Ctx) (x : Message) (hd bs cl : List Tok) : k = .file ∨ k = .message →
      words hd = [c!"message", x.messageName, c!"{"] → Word x.messageName →
      Body G .message x.messageBody bs → Close G cl → Spans (hd ++ bs ++ cl) x.info →
      Toks G k (.message x) (hd ++ bs ++ cl)
  | group (x : GroupField) (ls : List Str) (c : Char) (w : Str) (hd bs cl : List Tok) :
      Labelled x.isRepeated x.isRequired x.isOptional ls →
      words hd = ls ++ [c!"group", x.groupName, c!"=", x.fieldNumber, c!"{"] →
      Word x.groupName → x.groupName = c :: w → Capital c → IntLit x.fieldNumber →
      Body G .message x.messageBody bs → Close G cl → Spans (hd ++ bs ++ cl) x.info →
      Toks G .message (.groupField x) (hd ++ bs ++ cl)
  | enum (k : Ctx) (x : Enum) (hd bs cl : List Tok) : k = .file ∨ k = .message →
      words hd = [c!"enum", x.enumName, c!"{"] → Word x.enumName → Body G .enum x.enumBody bs →
      Close G cl → Spans (hd ++ bs ++ cl) x.info → Toks G k (.enum x) (hd ++ bs ++ cl)
  | extend (k : Ctx) (x : Extend) (ws : List Str) (hd bs cl : List Tok) : k = .file ∨ k = .message →
      MessageType x.messageType ws → words hd = c!"extend" :: ws ++ [c!"{"] →
      Body G .extend x.extendBody bs → Close G cl → Spans (hd ++ bs ++ cl) x.info →
      Toks G k (.extend x) (hd ++ bs ++ cl)
  | service (x : Service) (hd bs cl : List Tok) : words hd = [c!"service", x.serviceName, c!"{"] →
      Word x.serviceName → Body G .service x.serviceBody bs → Close G cl →
      Spans (hd ++ bs ++ cl) x.info → Toks G .file (.service x) (hd ++ bs ++ cl)
  | field (k : Ctx) (x : Field) (ts : List Tok) : k = .message ∨ k = .extend → FieldToks G x ts →
      (k = .message → ∀ t ∈ ts.head?, t.text ∉ messageWords) → Toks G k (.field x) ts
  | enumField (x : EnumField) (ts : List Tok) : EnumFieldToks G x ts → x.ident ≠ c!"option" →
      x.ident ≠ c!"reserved" → Toks G .enum (.enumField x) ts
  | oneof (x : Oneof) (ts : List Tok) : OneofToks G x ts → Toks G .message (.oneof x) ts
  | mapField (x : MapField) (ts : List Tok) : MapFieldToks G x ts → Toks G .message (.mapField x) ts
  | reserved (k : Ctx) (x : Reserved) (ts : List Tok) : k = .message ∨ k = .enum →
      ReservedToks G x ts → Toks G k (.reserved x) ts
  | extensions (x : Extensions) (ts : List Tok) : ExtensionsToks x ts →
      Toks G .message (.extensions x) ts
  | rpc (x : RPC) (ts : List Tok) : RPCToks G x ts → Toks G .service (.rpc x) ts

/-- The token lists of a body.  In permissive mode a semicolon after a right curly belongs to the
block (unless tokens may be dropped, where this is not required). -/
inductive Body (G : Gram) : Ctx → List Visitee → List Tok → Prop
  | nil (k : Ctx) : Body G k [] []
  | cons (k : Ctx) (v : Visitee) (ts : List Tok) (vs : List Visitee) (ts' : List Tok) :
      Toks G k v ts → Body G k vs ts' → (G.junk = false → G.permissive = true → Tight ts ts') →
      Body G k (v :: vs) (ts ++ ts')

end

/-- Nothing, or the tokens of a node. -/
inductive Optional {α : Type} (R : α → List Tok → Prop) : Option α → List Tok → Prop
  | none : Optional R none []
  | some (a : α) (ts : List Tok) : R a ts → Optional R (some a) ts

/-- `proto = [ BOM ] [ syntax ] [ edition ] body` -/
inductive ProtoToks (G : Gram) : Proto → List Tok → Prop
  | mk (x : Proto) (bom ss es bs : List Tok) : bom = [] ∨ words bom = [[Char.ofNat 0xFEFF]] →
      Optional SyntaxToks x.syntax_ ss → Optional EditionToks x.edition es →
      Body G .file x.protoBody bs → ProtoToks G x (bom ++ ss ++ es ++ bs)

/-- The text does not contain the letters `group`. -/
def NoGroup (t : Str) : Prop := ¬ c!"group" <:+: t

/-- There is an empty statement in a message body, directly or in a nested message or group. -/
inductive HasEmpty : List Visitee → Prop
  | here (e : EmptyStatement) (vs : List Visitee) : HasEmpty (.emptyStatement e :: vs)
  | there (v : Visitee) (vs : List Visitee) : HasEmpty vs → HasEmpty (v :: vs)
  | message (x : Message) (vs : List Visitee) : HasEmpty x.messageBody → HasEmpty (.message x :: vs)
  | group (x : GroupField) (vs : List Visitee) : HasEmpty x.messageBody → HasEmpty (.groupField x :: vs)

/-- There is an empty statement in a message of the file. -/
def FileHasEmpty (vs : List Visitee) : Prop := ∃ x, Visitee.message x ∈ vs ∧ HasEmpty x.messageBody

end Verif.Spec
