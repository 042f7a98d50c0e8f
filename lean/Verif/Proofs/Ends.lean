import Verif.Proofs.Flow

/-!
# How statements end

A statement that ends with a semicolon leaves the lexer at that semicolon, and has no inline comment
yet.
-/

set_option backward.isDefEq.respectTransparency false
set_option backward.dsimp.instances true

namespace Verif
open Spec Scanner Lexer
open M (bind_ok run_get)

/-- The last token read is a semicolon, and it is the last of a statement. -/
structure Ended (i : Meta) (o : Option Comment) (l' : Lexer) : Prop where
  token : l'.token = .semicolon
  last : i.lastPos = l'.pos.p
  inline : o = none

/-- Without conditions on failures. -/
abbrev Ends {α : Type} (Q : α → Lexer → Prop) (r : Res Lexer Err α) : Prop :=
  Sat (fun _ => True) Q (fun _ _ => True) r

namespace Parser

theorem ends_semicolon {α : Type} {Q : α → Lexer → Prop} {s : String} {f : SPos → P α} {l : Lexer}
    (h : ∀ l', l'.token = .semicolon → Ends Q (f l'.pos l')) :
    Ends Q ((do expect next Token.semicolon s; let p ← position; f p : P α) l) :=
  last_expect (fun l' h' => by rw [sat_position]; exact h l' h')

theorem parsePackage_ends (l : Lexer) :
    Ends (fun r l' => Ended r.info r.inlineComment l') (parsePackage l) := by
  unfold parsePackage
  iterate 3 refine Sat.last (fun _ _ => ?_)
  exact ends_semicolon (fun l' h => ⟨h, rfl, rfl⟩)

theorem parseImport_ends (l : Lexer) :
    Ends (fun r l' => Ended r.info r.inlineComment l') (parseImport l) := by
  unfold parseImport
  iterate 5 refine Sat.last (fun _ _ => ?_)
  exact ends_semicolon (fun l' h => ⟨h, rfl, rfl⟩)

theorem parseOption_ends (cfg : Cfg) (l : Lexer) :
    Ends (fun r l' => Ended r.info r.inlineComment l') (parseOption cfg l) := by
  unfold parseOption
  iterate 5 refine Sat.last (fun _ _ => ?_)
  exact ends_semicolon (fun l' h => ⟨h, rfl, rfl⟩)

theorem parseField_ends (cfg : Cfg) (l : Lexer) :
    Ends (fun r l' => Ended r.info r.inlineComment l') (parseField cfg l) := by
  unfold parseField
  iterate 9 refine Sat.last (fun _ _ => ?_)
  exact ends_semicolon (fun l' h => ⟨h, rfl, rfl⟩)

theorem parseMapField_ends (cfg : Cfg) (l : Lexer) :
    Ends (fun r l' => Ended r.info r.inlineComment l') (parseMapField cfg l) := by
  unfold parseMapField
  iterate 12 refine Sat.last (fun _ _ => ?_)
  exact ends_semicolon (fun l' h => ⟨h, rfl, rfl⟩)

theorem parseOneofField_ends (cfg : Cfg) (l : Lexer) :
    Ends (fun r l' => Ended r.info r.inlineComment l') (parseOneofField cfg l) := by
  unfold parseOneofField
  iterate 6 refine Sat.last (fun _ _ => ?_)
  exact ends_semicolon (fun l' h => ⟨h, rfl, rfl⟩)

theorem parseEnumField_ends (cfg : Cfg) (l : Lexer) :
    Ends (fun r l' => Ended r.info r.inlineComment l') (parseEnumField cfg l) := by
  unfold parseEnumField
  iterate 8 refine Sat.last (fun _ _ => ?_)
  exact ends_semicolon (fun l' h => ⟨h, rfl, rfl⟩)

theorem parseReserved_ends (l : Lexer) :
    Ends (fun r l' => Ended r.info r.inlineComment l') (parseReserved l) := by
  unfold parseReserved
  iterate 3 refine Sat.last (fun _ _ => ?_)
  exact ends_semicolon (fun l' h => ⟨h, rfl, rfl⟩)

theorem parseSyntax_ends (l : Lexer) :
    Ends (fun r l' => ∀ x, r = some x → Ended x.info x.inlineComment l') (parseSyntax l) := by
  unfold parseSyntax
  iterate 2 refine Sat.last (fun _ _ => ?_)
  refine sat_ite (fun _ => ?_) (fun _ => ?_)
  · refine Sat.last (fun _ _ => ?_)
    exact fun x h => absurd h (by simp)
  · iterate 6 refine Sat.last (fun _ _ => ?_)
    refine sat_ite (fun _ => trivial) (fun _ => ?_)
    iterate 2 refine Sat.last (fun _ _ => ?_)
    refine ends_semicolon (fun l' h => ?_)
    rintro x ⟨⟩
    exact ⟨h, rfl, rfl⟩

theorem parseSyntax_back {l : Lexer} (hg : Good l) :
    Ends (fun r l' => r = none → Back l l') (parseSyntax l) := by
  unfold parseSyntax
  refine sat_nextWith hg ?_
  rw [sat_tok]
  refine sat_ite (fun _ => ?_) (fun _ => ?_)
  · refine sat_unNext ?_
    exact fun _ => back_putBack hg _
  · iterate 6 refine Sat.last (fun _ _ => ?_)
    refine sat_ite (fun _ => trivial) (fun _ => ?_)
    iterate 3 refine Sat.last (fun _ _ => ?_)
    exact Sat.last (fun _ _ => fun h => absurd h (by simp))

theorem parseEdition_back {l : Lexer} (hg : Good l) :
    Ends (fun r l' => r = none → Back l l') (parseEdition l) := by
  unfold parseEdition
  refine sat_nextWith hg ?_
  rw [sat_tok]
  refine sat_ite (fun _ => ?_) (fun _ => ?_)
  · refine sat_unNext ?_
    exact fun _ => back_putBack hg _
  · iterate 9 refine Sat.last (fun _ _ => ?_)
    exact Sat.last (fun _ _ => fun h => absurd h (by simp))

theorem parseEdition_ends (l : Lexer) :
    Ends (fun r l' => ∀ x, r = some x → Ended x.info x.inlineComment l') (parseEdition l) := by
  unfold parseEdition
  iterate 2 refine Sat.last (fun _ _ => ?_)
  refine sat_ite (fun _ => ?_) (fun _ => ?_)
  · refine Sat.last (fun _ _ => ?_)
    exact fun x h => absurd h (by simp)
  · iterate 8 refine Sat.last (fun _ _ => ?_)
    refine ends_semicolon (fun l' h => ?_)
    rintro x ⟨⟩
    exact ⟨h, rfl, rfl⟩

end Parser

/-- The statement `v` with the tokens `ts` was read between `l` and `l'`. -/
def SegOut (G : Gram) (b : Bool) (l : Lexer) (v : Visitee) (ts : List Tok) (l' : Lexer) : Prop :=
  ∃ seg t, toks seg = ts ∧ TookI l seg l' ∧ EndsIn t seg ∧ l'.pos.p.line = t.pos.line ∧
    (Recd l → NoCom l → Com G b v seg)

/-- As a stream, with the first and the last token. -/
theorem ended_seg {l l' : Lexer} {ts : List Tok} {i : Meta} {o : Option Comment} (ht : Took l ts l')
    (hs : Spans ts i) (he : Ended i o l') :
    ∃ seg t, toks seg = ts ∧ TookI l seg l' ∧ EndsIn t seg ∧ l'.pos.p.line = t.pos.line := by
  obtain ⟨_, us, t, rfl, h2⟩ := hs
  obtain ⟨is, h3, h4, h5, _⟩ := ht.seg (by rw [he.token]; exact ⟨by simp, by simp, by simp⟩)
  exact ⟨is, t, h4, h3, h5, by rw [← he.last, h2]⟩

theorem ended_out {G : Gram} {b : Bool} {l l' : Lexer} {ts : List Tok} {i : Meta} {o : Option Comment}
    {v : Visitee} (ht : Took l ts l') (hs : Spans ts i) (he : Ended i o l') (hv : Plain v) :
    SegOut G b l v ts l' := by
  obtain ⟨seg, t, h1, h2, h3, h4⟩ := ended_seg ht hs he
  exact ⟨seg, t, h1, h2, h3, h4, fun _ _ => .plain _ _ hv⟩

theorem SegOut.took {G : Gram} {b : Bool} {l l' : Lexer} {ts : List Tok} {v : Visitee} (h : SegOut G b l v ts l') :
    Took l ts l' := by
  obtain ⟨seg, t, rfl, h2, _⟩ := h
  exact h2.took

theorem SegOut.back {G : Gram} {b : Bool} {l l1 l' : Lexer} {ts : List Tok} {v : Visitee} (h : SegOut G b l1 v ts l')
    (hb : TookI l [] l1) : SegOut G b l v ts l' := by
  obtain ⟨seg, t, h1, h2, h3, h4, h5⟩ := h
  exact ⟨seg, t, h1, hb.trans h2, h3, h4, fun hr hn => h5 (hb.recd hr) (hn.took hb)⟩

theorem optionToks_spans {G : Gram} {x : OptionStmt} {ts : List Tok} (h : OptionToks G x ts) : Spans ts x.info := by
  obtain ⟨_, _, _, _, _, h⟩ := h; exact h

theorem importToks_spans {G : Gram} {x : Import} {ts : List Tok} (h : ImportToks G x ts) : Spans ts x.info := by
  obtain ⟨_, _, _, _, h⟩ := h; exact h

theorem packageToks_spans {x : Package} {ts : List Tok} (h : PackageToks x ts) : Spans ts x.info := by
  obtain ⟨_, _, _, h⟩ := h; exact h

theorem reservedToks_spans {G : Gram} {x : Reserved} {ts : List Tok} (h : ReservedToks G x ts) : Spans ts x.info := by
  rcases h with ⟨_, _, _, _, h⟩ | ⟨_, _, _, _, _, _, h⟩ <;> exact h

theorem enumFieldToks_spans {G : Gram} {x : EnumField} {ts : List Tok} (h : EnumFieldToks G x ts) : Spans ts x.info := by
  obtain ⟨_, _, _, _, _, _, _, _, _, h⟩ := h; exact h

theorem fieldToks_spans {G : Gram} {x : Field} {ts : List Tok} (h : FieldToks G x ts) : Spans ts x.info := by
  obtain ⟨_, _, _, _, _, _, _, _, _, _, h⟩ := h; exact h

theorem mapFieldToks_spans {G : Gram} {x : MapField} {ts : List Tok} (h : MapFieldToks G x ts) : Spans ts x.info := by
  obtain ⟨_, _, _, _, _, _, _, _, h⟩ := h; exact h

end Verif
