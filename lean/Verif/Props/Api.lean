import Verif.Model.Api
import Verif.Spec.Lexical

/-!
# Properties of the comment accessors and of the options (C41, C42)
-/

namespace Verif.Props
open Verif

/-! ## Comment.Lines -/

/-- Lines joined by newlines. -/
def joinLines : List Str → Str
  | [] => []
  | [l] => l
  | l :: ls => l ++ '\n' :: joinLines ls

theorem splitLines_ne_nil (s : Str) : splitLines s ≠ [] := by
  cases s with
  | nil => simp [splitLines]
  | cons c cs => simp only [splitLines]; split <;> (try split) <;> simp

theorem joinLines_splitLines (s : Str) : joinLines (splitLines s) = s := by
  induction s with
  | nil => rfl
  | cons c cs ih =>
    simp only [splitLines]
    split
    · rename_i h
      cases hs : splitLines cs with
      | nil => exact absurd hs (splitLines_ne_nil cs)
      | cons l ls => rw [hs] at ih; simp [joinLines, ih, h]
    · split
      · rename_i hs; exact absurd hs (splitLines_ne_nil cs)
      · rename_i l ls hs
        rw [hs] at ih
        cases ls with
        | nil => simpa [joinLines] using ih
        | cons l2 ls => simpa [joinLines] using ih

theorem splitLines_no_newline (s : Str) : ∀ l ∈ splitLines s, '\n' ∉ l := by
  induction s with
  | nil => simp [splitLines]
  | cons c cs ih =>
    intro l hl
    simp only [splitLines] at hl
    split at hl
    · rcases List.mem_cons.1 hl with rfl | hl
      · simp
      · exact ih l hl
    · rename_i hc
      split at hl
      · simp only [List.mem_singleton] at hl
        subst hl
        simpa using fun h => hc h.symm
      · rename_i l' ls hs
        rcases List.mem_cons.1 hl with rfl | hl
        · have := ih l' (by rw [hs]; simp)
          simp only [List.mem_cons, not_or]
          exact ⟨fun h => hc h.symm, this⟩
        · exact ih l (by rw [hs]; simp [hl])

theorem trimPrefix_append (p s : Str) : trimPrefix (p ++ s) p = s := by
  simp [trimPrefix, hasPrefix, List.isPrefixOf_iff_prefix]

theorem trimSuffix_append (p s : Str) : trimSuffix (s ++ p) p = s := by
  simp [trimSuffix, List.isSuffixOf_iff_suffix]

theorem isCStyle_block (b : Str) (c : Comment) (h : c.raw = ['/', '*'] ++ b) : c.isCStyle = true := by
  simp [Comment.isCStyle, hasPrefix, h]

theorem isCStyle_line (b : Str) (c : Comment) (h : c.raw = ['/', '/'] ++ b) : c.isCStyle = false := by
  simp [Comment.isCStyle, hasPrefix, h, List.isPrefixOf]

/-- C41: for every comment that can stand before some text, joining the lines and putting the markers
back gives the raw text, and no line contains a newline.  `IsCStyle` tells which markers. -/
theorem comment_lines {rest raw text : Str} (hc : Spec.Comment rest raw text) (c : Comment)
    (h : c.raw = text) :
    (if c.isCStyle then ['/', '*'] ++ joinLines c.lines ++ ['*', '/']
      else ['/', '/'] ++ joinLines c.lines) = c.raw ∧
    (∀ l ∈ c.lines, '\n' ∉ l) ∧ (c.isCStyle = true ↔ ∃ b, text = ['/', '*'] ++ b) := by
  have hline : ∀ b : Str, c.raw = ['/', '/'] ++ b → c.lines = splitLines b := by
    intro b hb
    have h1 := trimPrefix_append ['/', '/'] b
    unfold Comment.lines
    rw [isCStyle_line b c hb, hb]
    exact congrArg splitLines h1
  have hblock : ∀ b : Str, c.raw = ['/', '*'] ++ b ++ ['*', '/'] → c.lines = splitLines b := by
    intro b hb
    have h1 := trimPrefix_append ['/', '*'] (b ++ ['*', '/'])
    have h2 := trimSuffix_append ['*', '/'] b
    unfold Comment.lines
    rw [isCStyle_block (b ++ ['*', '/']) c (by rw [hb]; simp), hb, List.append_assoc]
    simp only [if_true]
    show splitLines (trimSuffix (trimPrefix (['/', '*'] ++ (b ++ ['*', '/'])) ['/', '*']) ['*', '/']) = _
    rw [h1, h2]
  cases hc with
  | line b hb | last b hb hr =>
    rw [isCStyle_line b c h, hline b h]
    refine ⟨by simp [joinLines_splitLines, h], splitLines_no_newline b, ?_⟩
    simp
  | block b hb =>
    rw [isCStyle_block (b ++ ['*', '/']) c (by rw [h]; simp), hblock b h]
    exact ⟨by simp [joinLines_splitLines, h], splitLines_no_newline b, by simp⟩

/-- A single line comment has exactly one line. -/
theorem comment_lines_single {b : Str} (hb : '\n' ∉ b) (c : Comment) (h : c.raw = ['/', '/'] ++ b) :
    c.lines = [b] := by
  have h1 := trimPrefix_append ['/', '/'] b
  unfold Comment.lines
  rw [isCStyle_line b c h, h]
  show splitLines (trimPrefix (['/', '/'] ++ b) ['/', '/']) = _
  rw [h1]
  clear h1 h
  induction b with
  | nil => rfl
  | cons d ds ih =>
    simp only [List.mem_cons, not_or] at hb
    simp only [splitLines, ih hb.2, if_neg (fun h : d = '\n' => hb.1 h.symm)]

example : Spec.Comment [] c!"/* a\n/* b*/" c!"/* a\n/* b*/" ∧
    ({ raw := c!"/* a\n/* b*/", info := {} } : Comment).lines = [c!" a", c!"/* b"] :=
  ⟨Spec.Comment.block c!" a\n/* b" (by
    intro x y h
    have hlen := congrArg List.length h
    simp at hlen
    by_cases hx : 7 ≤ x.length
    · have : y.length = 0 := by omega
      simpa using this
    · exfalso
      have h2 : x.length < 7 := by omega
      have h3 : (c!" a\n/* b" ++ ['*', '/']).drop x.length = ['*', '/'] ++ y := by
        rw [h, List.append_assoc, List.drop_left]
      have : x.length = 0 ∨ x.length = 1 ∨ x.length = 2 ∨ x.length = 3 ∨ x.length = 4 ∨ x.length = 5 ∨
        x.length = 6 := by omega
      rcases this with e | e | e | e | e | e | e <;> rw [e] at h3 <;> simp at h3), by decide⟩

example : ({ raw := c!"/**/", info := {} } : Comment).lines = [[]] ∧
    ({ raw := c!"//", info := {} } : Comment).lines = [[]] := by decide

/-! ## Options -/

/-- The options of the library as data. -/
inductive Opt where
  | debug (b : Bool)
  | permissive (b : Bool)
  | bodyIncludingComments (b : Bool)
  | filename (f : Str)
  deriving DecidableEq, Repr

/-- The option as the library exports it. -/
def Opt.fn : Opt → ParseOpt
  | .debug b => withDebug b
  | .permissive b => withPermissive b
  | .bodyIncludingComments b => withBodyIncludingComments b
  | .filename f => withFilename f

def Opt.asDebug : Opt → Option Bool | .debug b => some b | _ => none
def Opt.asPermissive : Opt → Option Bool | .permissive b => some b | _ => none
def Opt.asBody : Opt → Option Bool | .bodyIncludingComments b => some b | _ => none
def Opt.asFilename : Opt → Option Str | .filename f => some f | _ => none

/-- The value of the last occurrence, or the default. -/
def lastOr {α : Type} (sel : Opt → Option α) (os : List Opt) (d : α) : α :=
  ((os.filterMap sel).getLast?).getD d

theorem lastOr_cons {α : Type} (sel : Opt → Option α) (o : Opt) (os : List Opt) (d : α) :
    lastOr sel (o :: os) d = lastOr sel os ((sel o).getD d) := by
  unfold lastOr
  cases h : sel o with
  | none => simp [h]
  | some a =>
    simp only [List.filterMap_cons, h, List.getLast?_cons, Option.getD_some]

theorem foldl_opts (os : List Opt) : ∀ c : ParseConfig,
    (os.map Opt.fn).foldl (fun c opt => opt c) c =
      { debug := lastOr Opt.asDebug os c.debug, permissive := lastOr Opt.asPermissive os c.permissive
        bodyIncludingComments := lastOr Opt.asBody os c.bodyIncludingComments
        filename := lastOr Opt.asFilename os c.filename } := by
  induction os with
  | nil => intro c; rfl
  | cons o os ih =>
    intro c
    rw [List.map_cons, List.foldl_cons, ih]
    simp only [lastOr_cons]
    cases o <;> rfl

/-- C42: each option has the value of its last occurrence; without it `Parse` is permissive, does not
include comments in bodies, and has no file name. -/
theorem config_last_wins (os : List Opt) :
    configOf (os.map Opt.fn) =
      { debug := lastOr Opt.asDebug os false, permissive := lastOr Opt.asPermissive os true
        bodyIncludingComments := lastOr Opt.asBody os false, filename := lastOr Opt.asFilename os [] } :=
  foldl_opts os _

/-- C42: two lists of options whose last values agree have the same result, whatever the order and
number of the options and the debug options among them. -/
theorem parse_options (fuel : Nat) (input : Str) (os os' : List Opt)
    (hp : lastOr Opt.asPermissive os true = lastOr Opt.asPermissive os' true)
    (hb : lastOr Opt.asBody os false = lastOr Opt.asBody os' false)
    (hf : lastOr Opt.asFilename os [] = lastOr Opt.asFilename os' []) :
    parse fuel input (os.map Opt.fn) = parse fuel input (os'.map Opt.fn) := by
  unfold parse runProto
  rw [config_last_wins, config_last_wins]
  simp only [hp, hb, hf]

/-- C42: adding debug options anywhere does not change the result. -/
theorem parse_debug (fuel : Nat) (input : Str) (os os' : List Opt) (b : Bool) :
    parse fuel input ((os ++ .debug b :: os').map Opt.fn) = parse fuel input ((os ++ os').map Opt.fn) := by
  apply parse_options <;> simp [lastOr, List.filterMap_append, List.filterMap_cons, Opt.asPermissive,
    Opt.asBody, Opt.asFilename]

/-- C42: options of different kinds commute. -/
theorem parse_commute (fuel : Nat) (input : Str) (os os' : List Opt) (b : Bool) (f : Str) :
    parse fuel input ((os ++ .permissive b :: .filename f :: os').map Opt.fn) =
      parse fuel input ((os ++ .filename f :: .permissive b :: os').map Opt.fn) := by
  apply parse_options <;> simp [lastOr, List.filterMap_append, List.filterMap_cons, Opt.asPermissive,
    Opt.asBody, Opt.asFilename]

example : (configOf []).permissive = true ∧
    configOf ([.permissive true, .filename c!"a", .permissive false, .debug true].map Opt.fn) =
      { debug := true, permissive := false, bodyIncludingComments := false, filename := c!"a" } :=
  ⟨rfl, rfl⟩

end Verif.Props
