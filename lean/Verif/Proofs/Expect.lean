import Verif.Spec.Expect
import Verif.Proofs.Ahead
import Verif.Proofs.ParseMessage

/-!
# What errors say they expected

`Say P Q E m`: from a state with `P`, `m` returns in a state with `Q`, or with an error with `E`.  `Now t x`: the
last token read is `t` with text `x`.
-/

set_option backward.isDefEq.respectTransparency false
set_option backward.dsimp.instances true

namespace Verif
open Spec Scanner Lexer

/-! ## Tokens and their texts -/

/-- What the last token and its text can be after reading in mode `m`. -/
def Lexed (m : Mode) (t : Token) (x : Str) : Prop :=
  (∃ rest raw, Lexeme m rest raw t x) ∨ t = .illegal ∧ x = []

theorem lexed_next (m : Mode) (l : Lexer) : Lexed m (nextSt m l).token (nextSt m l).text := by
  obtain ⟨g, cs, raw, rest, _, _, _, _, _, h⟩ := lex_lexeme m l.scanner.inp
  rcases h with ⟨_, h, _⟩ | ⟨_, h1, h2, _⟩
  · exact .inl ⟨_, _, h⟩
  · exact .inr ⟨h1, h2⟩

theorem str_head {w : Str} (h : StrLit w) : ∃ c d r, w = c :: d :: r ∧ (c = '\'' ∨ c = '"') := by
  obtain ⟨q, b, hq, _, rfl⟩ := h
  cases b with
  | nil => exact ⟨q, q, [], rfl, hq⟩
  | cons d b => exact ⟨q, d, b ++ [q], rfl, hq⟩

theorem comment_head {rest raw x : Str} (h : Spec.Comment rest raw x) : ∃ c r, x = '/' :: c :: r := by
  cases h with
  | line b _ => exact ⟨_, _, rfl⟩
  | last b _ _ => exact ⟨_, _, rfl⟩
  | block b _ => exact ⟨_, _, rfl⟩

theorem quote_not_start {c : Char} (h : c = '\'' ∨ c = '"') : ¬ WordStart c := by
  rcases h with rfl | rfl <;> unfold WordStart <;> decide

theorem punct_not_start {t : Token} {c : Char} (h : punctuation t = some c) : ¬ WordStart c := by
  cases t <;> simp [punctuation] at h <;> subst h <;> unfold WordStart <;> decide

theorem lexed_isIdent {m : Mode} {x : Str} (h : Lexed m .ident x) : Word x := by
  rcases h with ⟨rest, raw, h⟩ | ⟨h, _⟩
  · cases h with
    | word _ _ h _ _ => exact h
    | punct c _ h => simp [punctuation] at h
  · cases h

/-- The head of the text decides. -/
theorem lexed_word {m : Mode} {t : Token} {x : Str} (h : Lexed m t x) (hw : Word x) : WordClass m x t := by
  obtain ⟨c, r, rfl, hc⟩ := word_start hw
  rcases h with ⟨rest, raw, h⟩ | ⟨_, h⟩
  · cases h with
    | word _ _ _ _ h => exact h
    | str _ _ h =>
      obtain ⟨c', d, r', e, hq⟩ := str_head h
      simp only [List.cons.injEq] at e
      exact absurd hc (quote_not_start (e.1 ▸ hq))
    | int _ _ h =>
      obtain ⟨c', r', e, hd⟩ := intLit_head h
      simp only [List.cons.injEq] at e
      exact absurd hc (digit_not_wordStart (.inl (e.1 ▸ hd)))
    | float _ _ _ h => exact absurd hw h
    | comment _ _ _ h =>
      obtain ⟨c', r', e⟩ := comment_head h
      simp only [List.cons.injEq] at e
      rw [e.1] at hc
      exact absurd hc (by unfold WordStart; decide)
    | punct _ _ h => exact absurd hc (punct_not_start h)
    | quote _ _ h => exact absurd hc (quote_not_start h)
    | other _ _ _ h => exact absurd hc h
  · simp at h

theorem lexed_ident {m : Mode} {t : Token} {x : Str} (h : Lexed m t x) (hb : m.bool = false)
    (hn : m.number = false) (hk : m.keyword = false) (ht : t ≠ .ident) : ¬ Word x := by
  intro hw
  cases lexed_word h hw with
  | bool h1 => simp [hb] at h1
  | float h1 => simp [hn] at h1
  | keyword t h1 => simp [hk] at h1
  | ident => exact ht rfl

theorem lexed_keyword {m : Mode} {t k : Token} {x w : Str} (h : Lexed m t x) (hb : m.bool = false)
    (hn : m.number = false) (hk : m.keyword = true) (hs : spelling k = some w) (ht : t ≠ k) : x ≠ w := by
  rintro rfl
  cases lexed_word h (spelling_word hs) with
  | bool h1 => simp [hb] at h1
  | float h1 => simp [hn] at h1
  | keyword t h1 h2 => exact ht (by rw [← spelling_keyword h2, ← spelling_keyword hs])
  | ident _ _ h1 => exact h1 ⟨hk, k, hs⟩

theorem punct_facts {k : Token} {c : Char} (hs : punctuation k = some c) (hd : k ≠ .dot) :
    ¬ (c ∈ decimals ∨ c = '.') ∧ ¬ (c = '\'' ∨ c = '"') ∧ c ≠ '/' := by
  cases k <;> simp [punctuation] at hs <;> (try exact absurd rfl hd) <;> subst hs <;> decide

theorem lexed_punct {m : Mode} {t k : Token} {x : Str} {c : Char} (h : Lexed m t x)
    (hs : punctuation k = some c) (hd : k ≠ .dot) (ht : t ≠ k) : x ≠ [c] := by
  rintro rfl
  obtain ⟨h1, h2, h3⟩ := punct_facts hs hd
  rcases h with ⟨rest, raw, h⟩ | ⟨_, h⟩
  · cases h with
    | word _ _ h =>
      cases h with
      | mk _ _ h => exact punct_not_start hs h
    | str _ _ h => obtain ⟨c', d, r', e, hq⟩ := str_head h; simp at e
    | int _ _ h =>
      obtain ⟨c', r', e, hd⟩ := intLit_head h
      simp only [List.cons.injEq] at e
      exact h1 (.inl (e.1 ▸ hd))
    | float _ _ h h' =>
      rcases floatLit_head h with ⟨c', r', e, hd⟩ | e | e
      · simp only [List.cons.injEq] at e
        exact h1 (e.1 ▸ hd)
      · simp at e
      · simp at e
    | comment _ _ _ h => obtain ⟨c', r', e⟩ := comment_head h; simp at e
    | punct _ _ h => exact ht (by rw [← punctuation_misc h, ← punctuation_misc hs])
    | quote _ _ h => exact h2 h
    | other _ h => exact h k hs
  · simp at h

theorem lexed_quote {m : Mode} {t : Token} {x : Str} (h : Lexed m t x)
    (ht : t ≠ .quote) : x ≠ ['\''] ∧ x ≠ ['"'] := by
  have key : ∀ c, (c = '\'' ∨ c = '"') → x ≠ [c] := by
    rintro c hc rfl
    rcases h with ⟨rest, raw, h⟩ | ⟨_, h⟩
    · cases h with
      | word _ _ h =>
        cases h with
        | mk _ _ h => exact quote_not_start hc h
      | str _ _ h => obtain ⟨c', d, r', e, hq⟩ := str_head h; simp at e
      | int _ _ h =>
        obtain ⟨c', r', e, hd⟩ := intLit_head h
        simp only [List.cons.injEq] at e
        rw [← e.1] at hd
        rcases hc with rfl | rfl <;> exact absurd hd (by decide)
      | float _ _ h h' =>
        rcases floatLit_head h with ⟨c', r', e, hd⟩ | e | e
        · simp only [List.cons.injEq] at e
          rw [← e.1] at hd
          rcases hc with rfl | rfl <;> exact absurd hd (by decide)
        · simp at e
        · simp at e
      | comment _ _ _ h => obtain ⟨c', r', e⟩ := comment_head h; simp at e
      | punct _ _ h => cases t <;> simp [punctuation] at h <;> subst h <;> revert hc <;> decide
      | quote _ _ h => exact ht rfl
      | other _ _ h => exact h hc
    · simp at h
  exact ⟨key _ (.inl rfl), key _ (.inr rfl)⟩

/-- A float that is not a word has a rune that no integer literal has. -/
theorem float_split {x : Str} (h : FloatLit x) (hw : ¬ Word x) :
    ∃ d c r, x = d ++ c :: r ∧ Over decimals d ∧ (c = '.' ∨ c = 'e' ∨ c = 'E') := by
  cases h with
  | full d f e hd _ _ => exact ⟨d, '.', f ++ e, by simp, hd.2, .inl rfl⟩
  | exp d e hd he =>
    cases he with
    | plain e w he _ => exact ⟨d, e, w, rfl, hd.2, .inr he⟩
    | signed e s w he _ _ => exact ⟨d, e, s :: w, rfl, hd.2, .inr he⟩
  | frac f e _ _ => exact ⟨[], '.', f ++ e, rfl, by intro c hc; simp at hc, .inl rfl⟩
  | inf => exact absurd word_inf hw
  | nan => exact absurd word_nan hw

theorem float_not_int {x : Str} (h : FloatLit x) (hw : ¬ Word x) : ¬ IntLit x := by
  obtain ⟨d, c, r, rfl, hd, hc⟩ := float_split h hw
  have hcd : c ∉ decimals := by rcases hc with rfl | rfl | rfl <;> decide
  have hx : ∀ {y : Char}, y = 'x' ∨ y = 'X' → y ∉ decimals ∧ y ≠ c := by
    rintro y (rfl | rfl) <;> refine ⟨by decide, ?_⟩ <;> rintro rfl <;> revert hc <;> decide
  have hm : c ∈ d ++ c :: r := by simp
  intro hi
  generalize hx' : d ++ c :: r = x at hi hm
  cases hi with
  | decimal a w ha _ hw' =>
    simp only [List.mem_cons] at hm
    rcases hm with rfl | hm
    · exact hcd ha
    · exact hcd (hw' c hm)
  | octal w hw' =>
    simp only [List.mem_cons] at hm
    rcases hm with rfl | hm
    · exact hcd (by decide)
    · have key : ∀ c ∈ octals, c ∈ decimals := by decide
      exact hcd (key c (hw' c hm))
  | hex y w hy _ _ =>
    cases d with
    | nil =>
      simp only [List.nil_append, List.cons.injEq] at hx'
      rw [hx'.1] at hcd
      exact hcd (by decide)
    | cons a d =>
      cases d with
      | nil =>
        simp only [List.cons_append, List.nil_append, List.cons.injEq] at hx'
        exact (hx hy).2 hx'.2.1.symm
      | cons b d =>
        simp only [List.cons_append, List.cons.injEq] at hx'
        exact (hx hy).1 (hx'.2.1 ▸ hd b (by simp))

theorem lexed_int {m : Mode} {t : Token} {x : Str} (h : Lexed m t x) (hn : m.number = true)
    (ht : t ≠ .intLit) : ¬ IntLit x := by
  intro hi
  obtain ⟨c, r, rfl, hc⟩ := intLit_head hi
  rcases h with ⟨rest, raw, h⟩ | ⟨_, h⟩
  · cases h with
    | word _ _ h =>
      cases h with
      | mk _ _ h => exact digit_not_wordStart (.inl hc) h
    | str _ _ h =>
      obtain ⟨c', d, r', e, hq⟩ := str_head h
      simp only [List.cons.injEq] at e
      rw [← e.1] at hq
      rcases hq with rfl | rfl <;> exact absurd hc (by decide)
    | int _ _ h => exact ht rfl
    | float _ _ h h' => exact float_not_int h h' hi
    | comment _ _ _ h =>
      obtain ⟨c', r', e⟩ := comment_head h
      simp only [List.cons.injEq] at e
      rw [e.1] at hc
      exact absurd hc (by decide)
    | punct _ _ h => cases t <;> simp [punctuation] at h <;> subst h <;> revert hc <;> decide
    | quote _ _ h => rcases h with rfl | rfl <;> exact absurd hc (by decide)
    | other _ _ _ _ _ _ h => exact h hn hc
  · simp at h

theorem lexed_float {m : Mode} {t : Token} {x : Str} (h : Lexed m t x) (hn : m.number = true)
    (ht : t ≠ .floatLit) : ¬ FloatLit x := by
  intro hi
  by_cases hw : Word x
  · have h1 := lexed_word h hw
    rcases floatLit_head hi with ⟨c', r', rfl, hd⟩ | e | e
    · exact not_word_of_digit hd hw
    · cases h1 with
      | bool _ h2 => rw [e] at h2; simp at h2
      | float => exact ht rfl
      | keyword _ _ h2 => rw [e] at h2; cases t <;> simp [spelling] at h2
      | ident _ h2 => exact h2 ⟨hn, .inl e⟩
    · cases h1 with
      | bool _ h2 => rw [e] at h2; simp at h2
      | float => exact ht rfl
      | keyword _ _ h2 => rw [e] at h2; cases t <;> simp [spelling] at h2
      | ident _ h2 => exact h2 ⟨hn, .inr e⟩
  · rcases h with ⟨rest, raw, h⟩ | ⟨_, h⟩
    · cases h with
      | eof => rcases floatLit_head hi with ⟨c2, r2, e2, hc⟩ | e2 | e2 <;> simp at e2
      | word _ _ h => exact hw h
      | str _ _ h =>
        obtain ⟨c', d, r', e, hq⟩ := str_head h
        rcases floatLit_head hi with ⟨c2, r2, e2, hc⟩ | e2 | e2
        · rw [e2] at e
          simp only [List.cons.injEq] at e
          rw [← e.1] at hq
          rcases hq with rfl | rfl <;> exact absurd hc (by decide)
        · exact hw (e2 ▸ word_inf)
        · exact hw (e2 ▸ word_nan)
      | int _ _ h => exact float_not_int hi hw h
      | float _ _ h h' => exact ht rfl
      | comment _ _ _ h =>
        obtain ⟨c', r', e⟩ := comment_head h
        rcases floatLit_head hi with ⟨c2, r2, e2, hc⟩ | e2 | e2
        · rw [e2] at e
          simp only [List.cons.injEq] at e
          rw [e.1] at hc
          exact absurd hc (by decide)
        · exact hw (e2 ▸ word_inf)
        · exact hw (e2 ▸ word_nan)
      | punct c _ h hdot =>
        rcases floatLit_head hi with ⟨c2, r2, e2, hc⟩ | e2 | e2
        · simp only [List.cons.injEq] at e2
          by_cases hd : t = .dot
          · exact hdot hn hd
          · exact (punct_facts h hd).1 (e2.1 ▸ hc)
        · simp at e2
        · simp at e2
      | quote _ _ h =>
        rcases floatLit_head hi with ⟨c2, r2, e2, hc⟩ | e2 | e2
        · simp only [List.cons.injEq] at e2
          rw [← e2.1] at hc
          rcases h with rfl | rfl <;> exact absurd hc (by decide)
        · simp at e2
        · simp at e2
      | other _ hp _ _ _ _ h =>
        rcases floatLit_head hi with ⟨c2, r2, e2, hc⟩ | e2 | e2
        · simp only [List.cons.injEq] at e2
          rw [← e2.1] at hc
          rcases hc with hc | rfl
          · exact h hn hc
          · exact hp .dot rfl
        · simp at e2
        · simp at e2
    · subst h
      rcases floatLit_head hi with ⟨c2, r2, e2, hc⟩ | e2 | e2 <;> simp at e2

theorem lexed_str {m : Mode} {t : Token} {x : Str} (h : Lexed m t x)
    (ht : t ≠ .strLit) : ¬ StrLit x := by
  intro hi
  obtain ⟨c, d, r, rfl, hc⟩ := str_head hi
  rcases h with ⟨rest, raw, h⟩ | ⟨_, h⟩
  · cases h with
    | word _ _ h =>
      cases h with
      | mk _ _ h => exact quote_not_start hc h
    | str _ _ h => exact ht rfl
    | int _ _ h =>
      obtain ⟨c', r', e, hd⟩ := intLit_head h
      simp only [List.cons.injEq] at e
      rw [← e.1] at hd
      rcases hc with rfl | rfl <;> exact absurd hd (by decide)
    | float _ _ h h' =>
      rcases floatLit_head h with ⟨c', r', e, hd⟩ | e | e
      · simp only [List.cons.injEq] at e
        rw [← e.1] at hd
        rcases hc with rfl | rfl <;> exact absurd hd (by decide)
      · exact h' (e ▸ word_inf)
      · exact h' (e ▸ word_nan)
    | comment _ _ _ h =>
      obtain ⟨c', r', e⟩ := comment_head h
      simp only [List.cons.injEq] at e
      rcases hc with rfl | rfl <;> exact absurd e.1 (by decide)
  · simp at h

theorem lexed_spell {m : Mode} {t : Token} {x : Str} {c : Char} (h : Lexed m t x) (hs : punctuation t = some c) :
    x = [c] := by
  rcases h with ⟨rest, raw, h⟩ | ⟨h, _⟩
  · cases h with
    | word _ _ _ _ hc =>
      cases hc with
      | bool => simp [punctuation] at hs
      | float => simp [punctuation] at hs
      | keyword t _ hk => cases t <;> simp [spelling, punctuation] at hk hs
      | ident => simp [punctuation] at hs
    | punct c' _ hp _ => rw [hp] at hs; simpa using hs
    | _ => simp [punctuation] at hs
  · subst h; simp [punctuation] at hs

theorem lexed_noStr {m : Mode} {t : Token} {x : Str} (h : Lexed m t x) (hm : m.str = false) : t ≠ .strLit := by
  rintro rfl
  rcases h with ⟨rest, raw, h⟩ | ⟨h, _⟩
  · cases h with
    | word _ _ _ _ hc =>
      cases hc with
      | keyword _ _ hk => simp [spelling] at hk
    | str _ hs _ => simp [hm] at hs
    | punct _ _ hp _ => simp [punctuation] at hp
  · cases h

/-- An entry of the table, to be found by its text. -/
class Entry (e : String) (k : Kind) : Prop where
  mem : (e, k) ∈ kinds

instance : Entry "=" (.texts [c!"="]) := ⟨by simp [kinds]⟩
instance : Entry ";" (.texts [c!";"]) := ⟨by simp [kinds]⟩
instance : Entry ":" (.texts [c!":"]) := ⟨by simp [kinds]⟩
instance : Entry "," (.texts [c!","]) := ⟨by simp [kinds]⟩
instance : Entry "(" (.texts [c!"("]) := ⟨by simp [kinds]⟩
instance : Entry ")" (.texts [c!")"]) := ⟨by simp [kinds]⟩
instance : Entry "{" (.texts [c!"{"]) := ⟨by simp [kinds]⟩
instance : Entry "]" (.texts [c!"]"]) := ⟨by simp [kinds]⟩
instance : Entry "<" (.texts [c!"<"]) := ⟨by simp [kinds]⟩
instance : Entry ">" (.texts [c!">"]) := ⟨by simp [kinds]⟩
instance : Entry "{ or :" (.texts [c!"{", c!":"]) := ⟨by simp [kinds]⟩
instance : Entry "{ or ;" (.texts [c!"{", c!";"]) := ⟨by simp [kinds]⟩
instance : Entry "quote" (.texts [['\''], ['"']]) := ⟨by simp [kinds]⟩
instance : Entry "proto3 or proto2" (.texts [c!"proto3", c!"proto2"]) := ⟨by simp [kinds]⟩
instance : Entry "package" (.texts [c!"package"]) := ⟨by simp [kinds]⟩
instance : Entry "\"import\"" (.texts [c!"import"]) := ⟨by simp [kinds]⟩
instance : Entry "option" (.texts [c!"option"]) := ⟨by simp [kinds]⟩
instance : Entry "map" (.texts [c!"map"]) := ⟨by simp [kinds]⟩
instance : Entry "oneof" (.texts [c!"oneof"]) := ⟨by simp [kinds]⟩
instance : Entry "reserved" (.texts [c!"reserved"]) := ⟨by simp [kinds]⟩
instance : Entry "declaration" (.texts [c!"declaration"]) := ⟨by simp [kinds]⟩
instance : Entry "extensions" (.texts [c!"extensions"]) := ⟨by simp [kinds]⟩
instance : Entry "enum" (.texts [c!"enum"]) := ⟨by simp [kinds]⟩
instance : Entry "extend" (.texts [c!"extend"]) := ⟨by simp [kinds]⟩
instance : Entry "group" (.texts [c!"group"]) := ⟨by simp [kinds]⟩
instance : Entry "message" (.texts [c!"message"]) := ⟨by simp [kinds]⟩
instance : Entry "rpc" (.texts [c!"rpc"]) := ⟨by simp [kinds]⟩
instance : Entry "returns" (.texts [c!"returns"]) := ⟨by simp [kinds]⟩
instance : Entry "service" (.texts [c!"service"]) := ⟨by simp [kinds]⟩
instance : Entry "number, full_name, type, repeated, reserved, or }"
    (.texts [c!"number", c!"full_name", c!"type", c!"repeated", c!"reserved", c!"}"]) :=
  ⟨by simp [kinds, declKeys]⟩
instance : Entry "keyType constant" 
    (.texts [c!"int32", c!"int64", c!"uint32", c!"uint64", c!"sint32", c!"sint64",
     c!"fixed32", c!"fixed64", c!"sfixed32", c!"sfixed64", c!"bool", c!"string"]) :=
  ⟨by simp [kinds]⟩
instance : Entry "ident" (.word []) := ⟨by simp [kinds]⟩
instance : Entry "TIDENT" (.word []) := ⟨by simp [kinds]⟩
instance : Entry "fullIdent" (.word []) := ⟨by simp [kinds]⟩
instance : Entry "type" (.word []) := ⟨by simp [kinds]⟩
instance : Entry "fieldName" (.word []) := ⟨by simp [kinds]⟩
instance : Entry "mapName" (.word []) := ⟨by simp [kinds]⟩
instance : Entry "oneofName" (.word []) := ⟨by simp [kinds]⟩
instance : Entry "enumName" (.word []) := ⟨by simp [kinds]⟩
instance : Entry "groupName" (.word []) := ⟨by simp [kinds]⟩
instance : Entry "messageName" (.word []) := ⟨by simp [kinds]⟩
instance : Entry "serviceName" (.word []) := ⟨by simp [kinds]⟩
instance : Entry "repeated bool" (.word []) := ⟨by simp [kinds]⟩
instance : Entry "reserved bool" (.word []) := ⟨by simp [kinds]⟩
instance : Entry "ident or left paren" (.word [c!"("]) := ⟨by simp [kinds]⟩
instance : Entry "ident or bracedFullIdent" (.word [c!"("]) := ⟨by simp [kinds]⟩
instance : Entry "intLit" (.int []) := ⟨by simp [kinds]⟩
instance : Entry "number" (.int []) := ⟨by simp [kinds]⟩
instance : Entry "fieldNumber" (.int []) := ⟨by simp [kinds]⟩
instance : Entry "\"intLit | \"max\"" (.int [c!"max"]) := ⟨by simp [kinds]⟩
instance : Entry "strLit" .str := ⟨by simp [kinds]⟩
instance : Entry "full_name string" .str := ⟨by simp [kinds]⟩
instance : Entry "type string" .str := ⟨by simp [kinds]⟩
instance : Entry "quotedFieldName" .str := ⟨by simp [kinds]⟩
instance : Entry "fieldName or quotedFieldName" .strOrWord := ⟨by simp [kinds]⟩
instance : Entry "TINTLIT or TFLOATLIT" .number := ⟨by simp [kinds]⟩
instance : Entry "constant" .constant := ⟨by simp [kinds]⟩
instance : Entry "constant or permissive mode" .constant := ⟨by simp [kinds]⟩
instance : Entry "optionConstant" .phrase := ⟨by simp [kinds]⟩
instance : Entry "fieldOption" .phrase := ⟨by simp [kinds]⟩
instance : Entry "enumValueOption" .phrase := ⟨by simp [kinds]⟩

end Verif
