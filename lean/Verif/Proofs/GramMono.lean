import Verif.Spec.Nodes

/-!
# The token relations grow with the grammar
-/

namespace Verif.Spec

/-- Every construct of `G`, apart from empty statements with dropped tokens, is one of `G'`. -/
structure Gram.Le (G G' : Gram) : Prop where
  permissive : G.permissive = G'.permissive
  loose : G.loose = true → G'.loose = true

variable {G G' : Gram}

theorem NamePart.le (h : G.Le G') {s : Str} {ws : List Str} (hs : NamePart G s ws) : NamePart G' s ws := by
  cases hs with
  | ident _ hw => exact .ident _ hw
  | paren s ws hw => exact .paren s ws hw
  | dotted s ws hp hw => exact .dotted s ws (h.permissive ▸ hp) hw

theorem OptionName.le (h : G.Le G') {s : Str} {ws : List Str} (hs : OptionName G s ws) :
    OptionName G' s ws := by
  induction hs with
  | one s ws h1 => exact .one _ _ (h1.le h)
  | more s ws s' ws' _ h1 ih => exact .more _ _ _ _ ih (h1.le h)

theorem Constant.le (h : G.Le G') {s : Str} {ws : List Str} (hs : Constant G s ws) : Constant G' s ws := by
  have hp : ∀ b, G.permissive = b → G'.permissive = b := fun b hb => h.permissive ▸ hb
  refine Constant.rec (motive_1 := fun s ws _ => Constant G' s ws)
    (motive_2 := fun s ws _ => ConstantList G' s ws) (motive_3 := fun b s ws _ => Entry G' b s ws)
    (motive_4 := fun s ws _ => Entries G' s ws)
    ?_ ?_ ?_ ?_ ?_ ?_ ?_ ?_ ?_ ?_ ?_ ?_ ?_ ?_ ?_ ?_ ?_ ?_ ?_ hs
  · intro s ws a b; exact .name s ws a b
  · intro w a; exact .bool w a
  · intro w a; exact .number w a
  · intro s w a b; exact .signed s w a b
  · intro w a b; exact .str w (hp _ a) b
  · intro ws a b c; exact .strs ws (hp _ a) b c
  · intro a; exact .emptyMsg (hp _ a)
  · intro a; exact .emptyList (hp _ a)
  · intro s ws cl a _ b ih
    exact .list s ws cl (hp _ a) ih (b.imp id (fun b => ⟨h.loose b.1, b.2⟩))
  · intro s ws a _ ih; exact .msg s ws (hp _ a) ih
  · intro s ws _ ih; exact .one s ws ih
  · intro s ws s' ws' _ _ ih ih'; exact .more s ws s' ws' ih ih'
  · intro w s ws a _ ih; exact .colon w s ws a ih
  · intro w s ws a _ b ih; exact .brace w s ws a ih b
  · intro w s ws a _ b ih; exact .semi w s ws a ih b
  · intro b s ws _ ih; exact .last b s ws ih
  · intro b s ws sep _ a ih; exact .lastSep b s ws sep ih a
  · intro b s ws sep s' ws' _ a _ ih ih'; exact .sep b s ws sep s' ws' ih a ih'
  · intro b s ws s' ws' _ _ ih ih'; exact .blank b s ws s' ws' ih ih'

theorem Modifier.le (h : G.Le G') {m : ImportModifier} {ws : List Str} (hs : Modifier G m ws) :
    Modifier G' m ws := by
  cases hs with
  | none => exact .none
  | «public» => exact .public
  | weak => exact .weak
  | junk w a b c d => exact .junk w (h.loose a) b c d

theorem ImportToks.le (h : G.Le G') {x : Import} {ts : List Tok} (hs : ImportToks G x ts) :
    ImportToks G' x ts := by
  obtain ⟨a, ms, b, c⟩ := hs
  exact ⟨a, ms, b.le h, c⟩

theorem OptionToks.le (h : G.Le G') {x : OptionStmt} {ts : List Tok} (hs : OptionToks G x ts) :
    OptionToks G' x ts := by
  obtain ⟨ns, cs, a, b, c⟩ := hs
  exact ⟨ns, cs, a.le h, b.le h, c⟩

theorem FieldOptionToks.le (h : G.Le G') {x : FieldOption} {ts : List Str} (hs : FieldOptionToks G x ts) :
    FieldOptionToks G' x ts := by
  obtain ⟨ns, cs, a, b, c⟩ := hs
  exact ⟨ns, cs, a.le h, b.le h, c⟩

theorem FieldOptionList.le (h : G.Le G') {xs : List FieldOption} {ws : List Str}
    (hs : FieldOptionList G xs ws) : FieldOptionList G' xs ws := by
  induction hs with
  | one x ws a => exact .one x ws (a.le h)
  | more xs ws x ws' _ a ih => exact .more xs ws x ws' ih (a.le h)

theorem FieldOptions.le (h : G.Le G') {xs : List FieldOption} {ws : List Str}
    (hs : FieldOptions G xs ws) : FieldOptions G' xs ws := by
  cases hs with
  | none => exact .none
  | some xs ws a => exact .some xs ws (a.le h)

theorem FieldToks.le (h : G.Le G') {x : Field} {ts : List Tok} (hs : FieldToks G x ts) :
    FieldToks G' x ts := by
  obtain ⟨a, b, ls, ws, os, c, d, e, f, g⟩ := hs
  exact ⟨a, b, ls, ws, os, c, d, e, f.le h, g⟩

theorem MapFieldToks.le (h : G.Le G') {x : MapField} {ts : List Tok} (hs : MapFieldToks G x ts) :
    MapFieldToks G' x ts := by
  obtain ⟨a, b, c, ws, os, d, f, g⟩ := hs
  exact ⟨a, b, c, ws, os, d, f.le h, g⟩

theorem OneofFieldToks.le (h : G.Le G') {x : OneofField} {ts : List Tok} (hs : OneofFieldToks G x ts) :
    OneofFieldToks G' x ts := by
  obtain ⟨a, b, ws, os, c, d, f, g⟩ := hs
  exact ⟨a, b, ws, os, c, d, f.le h, g⟩

theorem OneofItems.le (h : G.Le G') {fs : List OneofField} {os : List OptionStmt} {ts : List Tok}
    (hs : OneofItems G fs os ts) : OneofItems G' fs os ts := by
  induction hs with
  | lastField x ts a => exact .lastField x ts (a.le h)
  | lastOption x ts a => exact .lastOption x ts (a.le h)
  | field x ts fs os ts' a _ ih => exact .field x ts fs os ts' (a.le h) ih
  | option x ts fs os ts' a _ ih => exact .option x ts fs os ts' (a.le h) ih
  | empty t fs os ts a _ ih => exact .empty t fs os ts a ih

theorem Close.le (h : G.Le G') {ts : List Tok} (hs : Close G ts) : Close G' ts :=
  hs.imp id (fun a => ⟨h.permissive ▸ a.1, a.2⟩)

theorem OneofToks.le (h : G.Le G') {x : Oneof} {ts : List Tok} (hs : OneofToks G x ts) :
    OneofToks G' x ts := by
  obtain ⟨a, hd, is, cl, b, c, d, e, f⟩ := hs
  exact ⟨a, hd, is, cl, b, c.le h, d.le h, e, f⟩

theorem ReservedToks.le (h : G.Le G') {x : Reserved} {ts : List Tok} (hs : ReservedToks G x ts) :
    ReservedToks G' x ts :=
  hs.imp id (fun ⟨js, ws, a, b, c, d⟩ => ⟨js, ws, a, b, c.imp id (fun c => ⟨h.loose c.1, c.2⟩), d⟩)

theorem EnumFieldToks.le (h : G.Le G') {x : EnumField} {ts : List Tok} (hs : EnumFieldToks G x ts) :
    EnumFieldToks G' x ts := by
  obtain ⟨a, sg, w, os, b, c, d, e, f⟩ := hs
  exact ⟨a, sg, w, os, b, c, d, e.le h, f⟩

theorem RPCOptions.le (h : G.Le G') {xs : List OptionStmt} {ts : List Tok} (hs : RPCOptions G xs ts) :
    RPCOptions G' xs ts := by
  induction hs with
  | nil => exact .nil
  | option x ts xs ts' a _ ih => exact .option x ts xs ts' (a.le h) ih
  | empty t xs ts a _ ih => exact .empty t xs ts a ih

theorem RPCToks.le (h : G.Le G') {x : RPC} {ts : List Tok} (hs : RPCToks G x ts) : RPCToks G' x ts := by
  obtain ⟨a, hd, rq, rt, rs, tl, b, c, d, e, f, g⟩ := hs
  refine ⟨a, hd, rq, rt, rs, tl, b, c, d, e, f.imp id ?_, g⟩
  rintro ⟨u, os, cl, i, j, k, m⟩
  exact ⟨u, os, cl, i, j.le h, k.le h, m⟩

theorem word_ne_semi {w : Str} (h : Word w) : w ≠ c!";" := by
  rintro rfl
  cases h with
  | mk _ _ h _ =>
    have : ¬ (';' ∈ letters ∨ ';' = '_') := by decide
    exact this h

theorem FullIdent.head {s : Str} {ws : List Str} (h : FullIdent s ws) :
    ∃ w us, ws = w :: us ∧ Word w := by
  cases h with
  | one w h => exact ⟨_, _, rfl, h⟩
  | more w s ws h _ => exact ⟨_, _, rfl, h⟩

theorem TypeName.head {s : Str} {ws : List Str} (h : TypeName s ws) :
    ∃ w us, ws = w :: us ∧ w ≠ c!";" := by
  cases h with
  | scalar h => exact ⟨_, _, rfl, by rintro rfl; revert h; decide⟩
  | named _ ht _ =>
    cases ht with
    | plain =>
      obtain ⟨w, us, rfl, hw⟩ := FullIdent.head (by assumption)
      exact ⟨_, _, rfl, word_ne_semi hw⟩
    | dot => exact ⟨_, _, rfl, by decide⟩

theorem Labelled.head {a b c : Bool} {ls : List Str} (h : Labelled a b c ls) :
    ls = [] ∨ ∃ w, ls = [w] ∧ w ∈ labelWords := by
  cases h
  · exact .inl rfl
  all_goals exact .inr ⟨_, rfl, by decide⟩

/-- A statement that is not empty does not start with a semicolon. -/
theorem Cut.le (h : G.Le G') {k : Ctx} {ws : List Str} (hs : Cut G k ws) : Cut G' k ws := by
  obtain ⟨ts, more, a, b, c⟩ := hs
  refine ⟨ts, more, a, b, ?_⟩
  cases k with
  | message => exact ⟨c.1.elim fun x hx => ⟨x, hx.le h⟩, c.2⟩
  | extend => exact c.elim fun x hx => ⟨x, hx.le h⟩
  | enum => exact ⟨c.1.elim fun x hx => ⟨x, hx.le h⟩, c.2⟩
  | file => exact c
  | service => exact c

theorem Toks.head {k : Ctx} {v : Visitee} {ts : List Tok} (h : Toks G k v ts)
    (hv : ∀ e, v ≠ .emptyStatement e) : (words ts).head? ≠ some c!";" := by
  have key : ∀ {us vs : List Tok} {w : Str} {ws : List Str}, words us = w :: ws → w ≠ c!";" →
      (words (us ++ vs)).head? ≠ some c!";" := by
    intro us vs w ws h1 h2
    simpa [words, ← List.map_append] using (by rw [words, List.map_append] ; rw [words] at h1; rw [h1]; simpa using h2 :
      (words (us ++ vs)).head? ≠ some c!";")
  have key' : ∀ {us : List Tok} {w : Str} {ws : List Str}, words us = w :: ws → w ≠ c!";" →
      (words us).head? ≠ some c!";" := by
    intro us w ws h1 h2
    rw [h1]; simpa using h2
  cases h with
  | comment => simp [words]
  | empty => exact absurd rfl (hv _)
  | junk => exact absurd rfl (hv _)
  | nil => simp [words]
  | importStmt x _ h =>
    obtain ⟨_, ms, _, h, _⟩ := h
    exact key' h (by decide)
  | package x _ h =>
    obtain ⟨ms, _, h, _⟩ := h
    exact key' h (by decide)
  | option _ x _ _ h =>
    obtain ⟨_, _, _, _, h, _⟩ := h
    exact key' h (by decide)
  | message _ x hd bs cl _ h => rw [List.append_assoc]; exact key h (by decide)
  | group x ls c w hd bs cl a h =>
    rw [List.append_assoc]
    rcases a.head with rfl | ⟨v, rfl, hv⟩
    · exact key h (by decide)
    · exact key h (by rintro rfl; revert hv; decide)
  | enum _ x hd bs cl _ h => rw [List.append_assoc]; exact key h (by decide)
  | extend _ x ws hd bs cl _ _ h => rw [List.append_assoc]; exact key h (by decide)
  | service x hd bs cl h => rw [List.append_assoc]; exact key h (by decide)
  | field _ x _ _ h =>
    obtain ⟨_, _, ls, ws, os, a, b, _, _, h, _⟩ := h
    obtain ⟨w, us, rfl, hw⟩ := b.head
    rcases a.head with rfl | ⟨v, rfl, hv⟩
    · exact key' h hw
    · exact key' h (by rintro rfl; revert hv; decide)
  | enumField x _ h =>
    obtain ⟨a, sg, w, os, _, _, _, _, h, _⟩ := h
    exact key' h (word_ne_semi a)
  | oneof x _ h =>
    obtain ⟨_, hd, is, cl, h, _, _, rfl, _⟩ := h
    rw [List.append_assoc]; exact key h (by decide)
  | mapField x _ h =>
    obtain ⟨_, _, _, _, _, _, _, h, _⟩ := h
    exact key' h (by decide)
  | reserved _ x _ _ h =>
    rcases h with ⟨_, _, _, h, _⟩ | ⟨_, _, _, _, _, h, _⟩
    · exact key' h (by decide)
    · exact key' h (by decide)
  | extensions x _ h =>
    obtain ⟨a, rs, ds, b, ha, _, _, _, rfl, _⟩ := h
    simp [words, ha]
  | rpc x _ h =>
    obtain ⟨_, hd, rq, rt, rs, tl, h, _, _, _, _, rfl, _⟩ := h
    simp only [List.append_assoc]; exact key h (by decide)

theorem Body.head {k : Ctx} {vs : List Visitee} {ts : List Tok} (h : Body G k vs ts)
    (hv : ∀ e, ¬ In (.emptyStatement e) vs) : (words ts).head? ≠ some c!";" := by
  induction vs generalizing ts with
  | nil => cases h; simp [words]
  | cons v vs ih =>
    cases h with
    | cons k v ts vs ts' h1 h2 _ =>
      have a := h1.head (by rintro e rfl; exact hv e (.here _))
      have b := ih h2 (fun e he => hv e (.there _ _ he))
      cases ts with
      | nil => exact b
      | cons t ts => exact a

/-- A body without empty statements is a body of the grammar that drops no tokens. -/
theorem Body.le (h : G.Le G') {k : Ctx} {vs : List Visitee} {ts : List Tok} (hs : Body G k vs ts)
    (hv : G'.junk = true ∨ ∀ e, ¬ In (.emptyStatement e) vs) : Body G' k vs ts := by
  have key : (G'.junk = true ∨ ∀ e, ¬ In (.emptyStatement e) vs) → Body G' k vs ts := by
    refine Body.rec (motive_1 := fun k v ts _ =>
        (G'.junk = true ∨ ∀ e, ¬ In (.emptyStatement e) [v]) → Toks G' k v ts)
      (motive_2 := fun k vs ts _ =>
        (G'.junk = true ∨ ∀ e, ¬ In (.emptyStatement e) vs) → Body G' k vs ts)
      ?_ ?_ ?_ ?_ ?_ ?_ ?_ ?_ ?_ ?_ ?_ ?_ ?_ ?_ ?_ ?_ ?_ ?_ ?_ ?_ ?_ hs
    · intro k c _; exact .comment k c
    · intro k e t a _; exact .empty k e t a
    · intro k e ts t _ b c hv
      rcases hv with hv | hv
      · exact .junk k e ts t hv (b.le h) c
      · exact absurd (.here _) (hv e)
    · intro _; exact .nil
    · intro x ts a _; exact .importStmt x ts (a.le h)
    · intro x ts a _; exact .package x ts a
    · intro k x ts a b _; exact .option k x ts a (b.le h)
    · intro k x hd bs cl a b c _ d e ih hv
      exact .message k x hd bs cl a b c (ih (hv.imp id (fun hv e' he => hv e' (.message x _ he)))) (d.le h) e
    · intro x ls c w hd bs cl a b d e f g _ i j ih hv
      exact .group x ls c w hd bs cl a b d e f g
        (ih (hv.imp id (fun hv e' he => hv e' (.group x _ he)))) (i.le h) j
    · intro k x hd bs cl a b c _ d e ih hv
      exact .enum k x hd bs cl a b c (ih (hv.imp id (fun hv e' he => hv e' (.enum x _ he)))) (d.le h) e
    · intro k x ws hd bs cl a b c _ d e ih hv
      exact .extend k x ws hd bs cl a b c (ih (hv.imp id (fun hv e' he => hv e' (.extend x _ he)))) (d.le h) e
    · intro x hd bs cl a b _ d e ih hv
      exact .service x hd bs cl a b (ih (hv.imp id (fun hv e' he => hv e' (.service x _ he)))) (d.le h) e
    · intro k x ts a b c _; exact .field k x ts a (b.le h) c
    · intro x ts a b c _; exact .enumField x ts (a.le h) b c
    · intro x ts a _; exact .oneof x ts (a.le h)
    · intro x ts a _; exact .mapField x ts (a.le h)
    · intro k x ts a b _; exact .reserved k x ts a (b.le h)
    · intro x ts a _; exact .extensions x ts a
    · intro x ts a _; exact .rpc x ts (a.le h)
    · intro k _; exact .nil k
    · intro k v ts vs ts' _ hb _ ih ih' hv
      have hj : G'.junk = false → G'.permissive = true → Tight ts ts' := by
        intro hj _ _
        rcases hv with hv | hv
        · rw [hv] at hj; simp at hj
        · exact hb.head (fun e he => hv e (.there _ _ he))
      refine .cons k v ts vs ts' (ih (hv.imp id (fun hv e he => hv e ?_)))
        (ih' (hv.imp id (fun hv e he => hv e (.there _ _ he)))) hj
      cases he with
      | here => exact .here _
      | there _ _ h => cases h
      | message x _ h => exact .message x _ h
      | group x _ h => exact .group x _ h
      | enum x _ h => exact .enum x _ h
      | extend x _ h => exact .extend x _ h
      | service x _ h => exact .service x _ h
  exact key hv

theorem ProtoToks.le (h : G.Le G') {p : Proto} {ts : List Tok} (hs : ProtoToks G p ts)
    (hv : G'.junk = true ∨ ∀ e, ¬ In (.emptyStatement e) p.protoBody) : ProtoToks G' p ts := by
  cases hs with
  | mk bom ss es bs a b c d => exact .mk p bom ss es bs a b c (d.le h hv)

end Verif.Spec
