import Verif.Props.Statements

/-!
# Which comments the tree has (C31, C51)

`ComProto` (Spec/Comments.lean) says, for a stream of tokens and comments, which comment is recorded in
which node.
-/

set_option backward.isDefEq.respectTransparency false
set_option backward.dsimp.instances true

namespace Verif.Props
open Scanner Spec Lexer

theorem flow_stream {f pre rest c : Str} {is : List Item}
    (h : Flow ((SPos.new f).advanceAll pre) rest is c) : Stream f pre rest is c := by
  generalize hp : (SPos.new f).advanceAll pre = p at h
  induction h generalizing pre with
  | nil => exact .nil
  | space ch is c hc _ ih =>
    subst hp
    exact .space ch is c hc (ih (by rw [SPos.advanceAll_append]; rfl))
  | com raw text is c hc _ ih =>
    subst hp
    rw [mkComment_source (comment_text_ne hc)]
    exact .com raw text is c hc (ih (by rw [SPos.advanceAll_append]))
  | tok w is c hw hs hx _ ih =>
    subst hp
    rw [SPos.advanceAll_new]
    exact .tok w is c hw hs hx (ih (by rw [SPos.advanceAll_append]))

/-- What is left at the end is white space. -/
theorem eof_flow {l : Lexer} (hg : Good l) (he : (nextSt {} l).token = .eof) (hn : NoCom l) :
    Flow l.scanner.pos [] [] l.scanner.inp := by
  obtain ⟨cs, h⟩ := eof_gap hg he
  have := flow_gap h l.scanner.pos
  cases cs with
  | nil => exact this
  | cons q cs => exact absurd (flow_com_next (rest := []) (by simp) this).1 hn

/-- C51: the input is a stream of tokens and comments, and the tree has exactly the comments that
`ComProto` gives to it.  Comments `lost` there are in no node. -/
theorem parse_comments {input : Str} {options : List ParseOpt} {p : Proto} (hn : NulFree input)
    (h : Parses input options (.ok p)) (hc : Settled options input p) :
    ∃ is, Stream (fileOf options) [] [] is input ∧ ProtoToks (gramOf options) p (toks is) ∧
      ComProto (gramOf options) (configOf options).bodyIncludingComments p is := by
  obtain ⟨_, fuel, h⟩ := h
  obtain ⟨is, l, h2, h4, ⟨_, c, e1, e2, h5⟩, hg, he, hx⟩ := parse_read hn h hc
  refine ⟨is, ?_, h2, h4⟩
  have e1 : input = c ++ l.scanner.inp := e1
  have := eof_flow hg he hx
  rw [e2] at this
  have := flow_append (rest := []) (is2 := []) (by simpa using h5) this
  rw [← e1, List.append_nil] at this
  exact flow_stream this

/-! ## One statement -/

theorem behind_append {n : Int} {o : Option Verif.Comment} {is : List Item} {t : Tok} {js : List Item}
    (h : Behind n o is) : Behind n o (is ++ .tok t :: js) := by
  refine ⟨h.1, fun ho c hc => ?_⟩
  cases is with
  | nil => simp at hc
  | cons i is => exact h.2 ho c (by simpa using hc)

/-- The statement `v` stands in the stream `is`: its comments `cs` directly before its first token, its
inline comment behind its last token, on the same line. -/
def Stands (G : Gram) (b : Bool) (v : Visitee) (cs : List Verif.Comment) (is : List Item) : Prop :=
  ∃ a seg t d k, is = a ++ coms cs ++ seg ++ opt (inlineOf v) ++ d ∧ Toks G k v (toks seg) ∧
    Com G b v seg ∧ Starts seg ∧ EndsIn t seg ∧ Behind t.pos.line (inlineOf v) d

theorem stands_block {G : Gram} {b : Bool} {v : Visitee} {cs : List Verif.Comment} {o : Option Verif.Comment}
    {body seg : List Item} (hb : Block o body seg) (h : Stands G b v cs body) (a js : List Item) :
    Stands G b v cs (a ++ seg ++ js) := by
  obtain ⟨hd, _, cl, tl, _, _, rfl, _, _⟩ := hb
  obtain ⟨a', s, t, d, k, rfl, h1, h2, h3, h4, h5⟩ := h
  exact ⟨a ++ hd ++ opt o ++ a', s, t, d ++ .tok cl :: (tl ++ js), k, by simp, h1, h2, h3, h4, behind_append h5⟩

/-- The cases of a body with a first element. -/
theorem comBody_cons {G : Gram} {b : Bool} {k : Ctx} {u : Visitee} {vs : List Visitee} {is : List Item}
    (h : ComBody G b k (u :: vs) is) :
    (∃ c cs, b = true ∧ u = .comment c ∧ vs = cs.map .comment ∧ is = .com c :: coms cs) ∨
    (∃ cs seg t js, Toks G k u (toks seg) ∧ Com G b u seg ∧ (∀ cs', commentsOf u = some cs' → cs' = cs) ∧
      Starts seg ∧ EndsIn t seg ∧ Behind t.pos.line (inlineOf u) js ∧ ComBody G b k vs js ∧
      is = coms cs ++ seg ++ opt (inlineOf u) ++ js) ∨
    (∃ lost t us js, u = .emptyStatement {} ∧ vs = .nil :: us ∧ t.text = c!";" ∧ Behind t.pos.line none js ∧
      ComBody G b k us js ∧ is = coms lost ++ .tok t :: js) := by
  generalize hus : u :: vs = us at h
  cases h with
  | done k cs =>
    cases b with
    | false => simp at hus
    | true =>
      cases cs with
      | nil => simp at hus
      | cons c cs =>
        simp only [if_true, List.map_cons, List.cons.injEq] at hus
        exact .inl ⟨c, cs, rfl, hus.1, hus.2, rfl⟩
  | stmt k v cs seg t vs js h1 h2 h3 h4 h5 h6 h7 =>
    simp only [List.cons.injEq] at hus
    obtain ⟨rfl, rfl⟩ := hus
    exact .inr (.inl ⟨cs, seg, t, js, h1, h2, h3, h4, h5, h6, h7, rfl⟩)
  | semi lost t vs js h1 h2 h3 =>
    simp only [List.cons.injEq] at hus
    exact .inr (.inr ⟨lost, t, vs, js, hus.1, hus.2, h1, h2, h3, rfl⟩)

theorem in_comments {v : Visitee} {cs : List Verif.Comment} (h : In v (cs.map .comment)) :
    ∃ c, v = .comment c := by
  induction cs with
  | nil => cases h
  | cons c cs ih =>
    cases h with
    | here => exact ⟨c, rfl⟩
    | there _ _ h => exact ih h

theorem in_stands {G : Gram} {b : Bool} {v : Visitee} {cs : List Verif.Comment} (hv : commentsOf v = some cs)
    {vs : List Visitee} (h : In v vs) :
    ∀ {k : Ctx} {is : List Item}, (ComBody G b k vs is ∨ ∃ us, vs = .nil :: us ∧ ComBody G b k us is) →
      Stands G b v cs is := by
  have key : ∀ {o : Option Verif.Comment} {u : Visitee} {vs bd : List Visitee} {k k' : Ctx} {is : List Item},
      (∀ {k : Ctx} {is : List Item}, ComBody G b k bd is → Stands G b v cs is) →
      (∀ seg, Com G b u seg → bd = [] ∨ ∃ body, ComBody G b k' bd body ∧ Block o body seg) → bd ≠ [] →
      (∀ x, u ≠ .comment x) → (∀ x, u ≠ .emptyStatement x) → u ≠ .nil →
      (ComBody G b k (u :: vs) is ∨ ∃ us, u :: vs = .nil :: us ∧ ComBody G b k us is) → Stands G b v cs is := by
    intro o u vs bd k k' is ih hu hn hc he hx hb
    replace hb := hb.resolve_right (by
      rintro ⟨us, h, _⟩
      simp only [List.cons.injEq] at h
      exact hx h.1)
    rcases comBody_cons hb with ⟨c, _, _, h, _⟩ | ⟨cs', seg, t, js, _, h2, _, _, _, _, _, rfl⟩ | ⟨_, _, _, _, h, _⟩
    · exact absurd h (hc _)
    · obtain ⟨body, h3, h4⟩ := (hu seg h2).resolve_left hn
      have := stands_block h4 (ih h3) (coms cs') (opt (inlineOf u) ++ js)
      simpa using this
    · exact absurd h (he _)
  have ne : ∀ {vs : List Visitee}, In v vs → vs ≠ [] := by
    intro vs h; cases h <;> simp
  induction h with
  | here vs =>
    intro k is hb
    replace hb := hb.resolve_right (by
      rintro ⟨us, h, _⟩
      simp only [List.cons.injEq] at h
      rw [h.1] at hv
      simp [commentsOf] at hv)
    rcases comBody_cons hb with ⟨c, _, _, rfl, _⟩ | ⟨cs', seg, t, js, h1, h2, h3, h4, h5, h6, _, rfl⟩ |
      ⟨_, _, _, _, rfl, _⟩
    · simp [commentsOf] at hv
    · obtain rfl := h3 _ hv
      exact ⟨[], seg, t, js, _, by simp, h1, h2, h4, h5, h6⟩
    · simp [commentsOf] at hv
  | there u vs h ih =>
    intro k is hb
    rcases hb with hb | ⟨us, hus, hb⟩
    rotate_left
    · simp only [List.cons.injEq] at hus
      rw [hus.2] at ih
      exact ih (.inl hb)
    rcases comBody_cons hb with ⟨c, cs', _, _, rfl, _⟩ | ⟨cs', seg, t, js, h1, h2, h3, h4, h5, h6, h7, rfl⟩ |
      ⟨lost, t, us, js, _, rfl, _, _, h7, rfl⟩
    · obtain ⟨c, rfl⟩ := in_comments h
      simp [commentsOf] at hv
    · obtain ⟨a, s, t', d, k', rfl, h⟩ := ih (.inl h7)
      exact ⟨coms cs' ++ seg ++ opt (inlineOf u) ++ a, s, t', d, k', by simp, h⟩
    · obtain ⟨a, s, t', d, k', rfl, h⟩ := ih (.inr ⟨us, rfl, h7⟩)
      exact ⟨coms lost ++ .tok t :: a, s, t', d, k', by simp, h⟩
  | message x vs h ih =>
    intro k is hb
    refine key (o := x.inlineCommentBehindLeftCurly) (k' := .message) (fun h => ih (.inl h)) ?_ (ne h) (by simp) (by simp) (by simp) hb
    intro seg hc
    cases hc with
    | plain _ _ h => exact absurd h (by simp [Plain])
    | message => rename_i h1 h2; exact .inr ⟨_, h1, h2⟩
    | noMessage => rename_i h1 _ _; exact .inl h1
  | group x vs h ih =>
    intro k is hb
    refine key (o := x.inlineCommentBehindLeftCurly) (k' := .message) (fun h => ih (.inl h)) ?_ (ne h) (by simp) (by simp) (by simp) hb
    intro seg hc
    cases hc with
    | plain _ _ h => exact absurd h (by simp [Plain])
    | group => rename_i h1 h2; exact .inr ⟨_, h1, h2⟩
    | noGroup => rename_i h1 _ _; exact .inl h1
  | enum x vs h ih =>
    intro k is hb
    refine key (o := x.inlineCommentBehindLeftCurly) (k' := .enum) (fun h => ih (.inl h)) ?_ (ne h) (by simp) (by simp) (by simp) hb
    intro seg hc
    cases hc with
    | plain _ _ h => exact absurd h (by simp [Plain])
    | enum => rename_i h1 h2; exact .inr ⟨_, h1, h2⟩
  | extend x vs h ih =>
    intro k is hb
    refine key (o := x.inlineCommentBehindLeftCurly) (k' := .extend) (fun h => ih (.inl h)) ?_ (ne h) (by simp) (by simp) (by simp) hb
    intro seg hc
    cases hc with
    | plain _ _ h => exact absurd h (by simp [Plain])
    | extend => rename_i h1 h2; exact .inr ⟨_, h1, h2⟩
    | noExtend => rename_i h1 _ _; exact .inl h1
  | service x vs h ih =>
    intro k is hb
    refine key (o := x.inlineCommentBehindLeftCurly) (k' := .service) (fun h => ih (.inl h)) ?_ (ne h) (by simp) (by simp) (by simp) hb
    intro seg hc
    cases hc with
    | plain _ _ h => exact absurd h (by simp [Plain])
    | service => rename_i h1 h2; exact .inr ⟨_, h1, h2⟩

/-- C51: a statement of the tree, at any depth, stands in the text with the comments that it has. -/
theorem statement_comments {input : Str} {options : List ParseOpt} {p : Proto} (hn : NulFree input)
    (h : Parses input options (.ok p)) (hc : Settled options input p)
    {v : Visitee} (hi : In v p.protoBody) {cs : List Verif.Comment} (hv : commentsOf v = some cs) :
    ∃ is, Stream (fileOf options) [] [] is input ∧
      Stands (gramOf options) (configOf options).bodyIncludingComments v cs is := by
  obtain ⟨is, h1, _, h2⟩ := parse_comments hn h hc
  refine ⟨is, h1, ?_⟩
  cases h2 with
  | mk bom cs' ss es js _ _ _ _ _ _ h3 =>
    obtain ⟨a, s, t, d, k, rfl, h⟩ := in_stands hv hi (.inl h3)
    exact ⟨bom ++ coms cs' ++ ss ++ es ++ a, s, t, d, k, by simp, h⟩

/-! ## C31: kept and lost comments -/

/-- The comment is in the tree, or in a lossy place. -/
def KeptOrLost (G : Gram) (vs : List Visitee) (is : List Item) (c : Verif.Comment) : Prop :=
  ∃ v, In v vs ∧ (Has v c ∨ LostAt G v is c)

theorem lostAt_mono {G : Gram} {v : Visitee} {is : List Item} {c : Verif.Comment} (h : LostAt G v is c)
    (a d : List Item) : LostAt G v (a ++ is ++ d) c := by
  obtain ⟨a', cs, seg, d', rfl, h⟩ := h
  exact ⟨a ++ a', cs, seg, d' ++ d, by simp, h⟩

theorem mem_coms {c : Verif.Comment} {cs : List Verif.Comment} : Item.com c ∈ coms cs ↔ c ∈ cs := by
  simp [coms]

theorem mem_commentsIn {c : Verif.Comment} {is : List Item} : Item.com c ∈ is ↔ c ∈ commentsIn is := by
  induction is with
  | nil => simp [commentsIn]
  | cons i is ih => cases i <;> simp [commentsIn, ih]

theorem mem_opt {c : Verif.Comment} {o : Option Verif.Comment} : Item.com c ∈ opt o ↔ o = some c := by
  cases o <;> simp [opt, coms, eq_comm]

/-- A comment of a block is in its body, behind its left curly, or outside. -/
theorem block_mem {o : Option Verif.Comment} {body seg : List Item} {c : Verif.Comment} (h : Block o body seg)
    (hc : .com c ∈ seg) : o = some c ∨ .com c ∈ body ∨ Outside seg c := by
  obtain ⟨hd, b, cl, tl, h1, h2, rfl, h3, _⟩ := h
  simp only [List.mem_append, List.mem_cons, reduceCtorEq, false_or, mem_opt] at hc
  rcases hc with ((hc | hc) | hc) | hc
  · exact .inr (.inr ⟨hd, b, opt o ++ body, cl, tl, by simp, h1, h2, h3, .inl hc⟩)
  · exact .inl hc
  · exact .inr (.inl hc)
  · exact .inr (.inr ⟨hd, b, opt o ++ body, cl, tl, by simp, h1, h2, h3, .inr hc⟩)

theorem block_infix {o : Option Verif.Comment} {body seg : List Item} (h : Block o body seg) :
    ∃ a d, seg = a ++ body ++ d := by
  obtain ⟨hd, b, cl, tl, _, _, rfl, _⟩ := h
  exact ⟨hd ++ opt o, .tok cl :: tl, by simp⟩

theorem body_kept {G : Gram} {k : Ctx} {vs : List Visitee} {is : List Item} (h : ComBody G true k vs is) :
    ∀ c, .com c ∈ is → KeptOrLost G vs is c := by
  have inner : ∀ {bd : List Visitee} {v : Visitee} {o : Option Verif.Comment} {body seg : List Item},
      (∀ c, .com c ∈ body → KeptOrLost G bd body c) → Block o body seg →
      (∀ u, In u bd → In u [v]) → leftCurlyOf v = o → (∀ c, Outside seg c → Lossy v seg c) →
      ∀ c, .com c ∈ seg → (∃ u, In u [v] ∧ (Has u c ∨ LostAt G u seg c)) ∨ Lossy v seg c := by
    intro bd v o body seg ih hb hi hl ho c hc
    rcases block_mem hb hc with h | h | h
    · exact .inl ⟨v, .here _, .inl (.inr (.inr (.inr (.inl (hl.trans h)))))⟩
    · obtain ⟨u, h1, h2⟩ := ih c h
      obtain ⟨a, d, rfl⟩ := block_infix hb
      exact .inl ⟨u, hi u h1, h2.imp id (fun h => lostAt_mono h a d)⟩
    · exact .inr (ho c h)
  have lift : ∀ {v u : Visitee} {vs : List Visitee}, In u [v] → In u (v :: vs) := by
    intro v u vs h
    cases h with
    | here => exact .here _
    | there _ _ h => cases h
    | message x _ h => exact .message x _ h
    | group x _ h => exact .group x _ h
    | enum x _ h => exact .enum x _ h
    | extend x _ h => exact .extend x _ h
    | service x _ h => exact .service x _ h
  refine ComBody.rec (G := G) (b := true)
    (motive_1 := fun v seg _ => ∀ c, .com c ∈ seg →
      (∃ u, In u [v] ∧ (Has u c ∨ LostAt G u seg c)) ∨ Lossy v seg c)
    (motive_2 := fun k vs is _ => ∀ c, .com c ∈ is → KeptOrLost G vs is c)
    ?_ ?_ ?_ ?_ ?_ ?_ ?_ ?_ ?_ ?_ ?_ ?_ ?_ ?_ ?_ ?_ ?_ h
  · intro v seg hp c hc
    refine .inr ?_
    cases v <;> first | exact hc | exact hp.elim
  · intro x body seg _ _ hb ih
    exact inner ih hb (fun u h => .message x _ h) rfl (fun c h => .inl h)
  · intro x seg hx _ _ c hc
    exact .inr (.inr ⟨hx, hc⟩)
  · intro x body seg _ _ hb ih
    exact inner ih hb (fun u h => .group x _ h) rfl (fun c h => .inl h)
  · intro x seg hx _ _ c hc
    exact .inr (.inr ⟨hx, hc⟩)
  · intro x body seg _ _ hb ih
    exact inner ih hb (fun u h => .extend x _ h) rfl (fun c h => .inl h)
  · intro x seg hx _ _ c hc
    exact .inr (.inr ⟨hx, hc⟩)
  · intro x body seg _ hb ih
    exact inner ih hb (fun u h => .enum x _ h) rfl (fun c h => h)
  · intro x body seg _ hb ih
    exact inner ih hb (fun u h => .service x _ h) rfl (fun c h => h)
  · intro x body seg _ hb c hc
    exact .inr hc
  · intro x hd a ds _ _ _ c hc
    exact .inr hc
  · intro x seg _ _ _ c hc
    exact .inr hc
  · intro x hd body seg hb he _ c hc
    obtain ⟨b, cl, tl, h1, h2, rfl, h3, _⟩ := hb
    have hc' : .com c ∈ hd ∨ .com c ∈ opt x.inlineCommentBehindLeftCurly ++ (body ++ .tok cl :: tl) := by
      simpa [or_assoc] using hc
    rcases hc' with hc | hc
    · exact .inl ⟨_, .here _, .inl (.inr (.inr (.inr (.inr (by
        show c ∈ x.embeddedComments
        rw [he]; exact mem_commentsIn.1 hc)))))⟩
    · exact .inr ⟨hd, b, _, by simp, h1, hc⟩
  · intro x seg _ _ _ he c hc
    exact .inl ⟨_, .here _, .inl (.inr (.inr (.inr (.inr (by
      show c ∈ x.embeddedComments
      rw [he]; exact mem_commentsIn.1 hc)))))⟩
  · intro k cs c hc
    have hc := mem_coms.1 hc
    have : ∀ {cs : List Verif.Comment}, c ∈ cs → In (.comment c) (cs.map .comment) := by
      intro cs hc
      induction cs with
      | nil => simp at hc
      | cons d cs ih =>
        rcases List.mem_cons.1 hc with rfl | hc
        · exact .here _
        · exact .there _ _ (ih hc)
    exact ⟨.comment c, this hc, .inl (.inl rfl)⟩
  · intro k v cs seg t vs js h1 h2 h3 h4 h5 h6 h7 ih1 ih2 c hc
    simp only [List.mem_append, mem_coms, mem_opt] at hc
    rcases hc with ((hc | hc) | hc) | hc
    · by_cases he : commentsOf v = none
      · have : ∃ x, v = .emptyStatement x := by
          obtain ⟨t0, js0, rfl⟩ := h4
          simp only [toks_tok] at h1
          cases v <;> first | exact ⟨_, rfl⟩ | (simp [commentsOf] at he; done) | cases h1
        exact ⟨v, .here _, .inr ⟨[], cs, seg, opt (inlineOf v) ++ js, by simp, .inl ⟨k, h1⟩, .inr ⟨this, hc⟩⟩⟩
      · obtain ⟨cs', e⟩ := Option.ne_none_iff_exists'.1 he
        obtain rfl := h3 _ e
        exact ⟨v, .here _, .inl (.inr (.inl ⟨_, e, hc⟩))⟩
    · rcases ih1 c hc with ⟨u, hu, h⟩ | h
      · refine ⟨u, lift hu, h.imp id (fun h => ?_)⟩
        simpa using lostAt_mono h (coms cs) (opt (inlineOf v) ++ js)
      · exact ⟨v, .here _, .inr ⟨[], cs, seg, opt (inlineOf v) ++ js, by simp, .inl ⟨k, h1⟩, .inl h⟩⟩
    · exact ⟨v, .here _, .inl (.inr (.inr (.inl hc)))⟩
    · obtain ⟨u, hu, h⟩ := ih2 c hc
      refine ⟨u, .there _ _ hu, h.imp id (fun h => ?_)⟩
      simpa using lostAt_mono h (coms cs ++ seg ++ opt (inlineOf v)) []
  · intro lost t vs js h1 h2 h3 ih c hc
    simp only [List.mem_append, List.mem_cons, reduceCtorEq, false_or, mem_coms] at hc
    rcases hc with hc | hc
    · exact ⟨_, .here _, .inr ⟨[], lost, [.tok t], js, by simp, .inr ⟨rfl, by simp [h1]⟩, .inr ⟨⟨_, rfl⟩, hc⟩⟩⟩
    · obtain ⟨u, hu, h⟩ := ih c hc
      refine ⟨u, .there _ _ (.there _ _ hu), h.imp id (fun h => ?_)⟩
      have := lostAt_mono h (coms lost ++ [.tok t]) []
      rwa [List.append_nil, List.append_assoc] at this

/-- C31, the part that holds: with `WithBodyIncludingComments(true)`, every comment of a file that stands
behind the `syntax` and `edition` statements is in the tree, unless it stands in one of the lossy
places of a statement.  (What is missing in the full claim: those places, and the comments before
the first statement of a file without `syntax` and `edition`.) -/
theorem comments_kept_partial {input : Str} {options : List ParseOpt} {p : Proto} (hn : NulFree input)
    (h : Parses input options (.ok p)) (hc : Settled options input p)
    (hb : (configOf options).bodyIncludingComments = true) :
    ∃ hd js, Stream (fileOf options) [] [] (hd ++ js) input ∧
      ((p.syntax_ = none ∧ p.edition = none ∧ (words (toks hd) = [] ∨ words (toks hd) = [[Char.ofNat 0xFEFF]])) ∨
        (∃ x, p.syntax_ = some x ∧ ∀ c ∈ x.comments, .com c ∈ hd) ∨
        (∃ x, p.edition = some x ∧ ∀ c ∈ x.comments, .com c ∈ hd)) ∧
      ∀ c, .com c ∈ js → ∃ v, In v p.protoBody ∧ (Has v c ∨ LostAt (gramOf options) v js c) := by
  obtain ⟨is, h1, _, h2⟩ := parse_comments hn h hc
  rw [hb] at h2
  cases h2 with
  | mk bom cs' ss es js e1 e2 e3 e4 e5 _ h3 =>
    refine ⟨bom ++ coms cs' ++ ss ++ es, js, h1, ?_, fun c hc => body_kept h3 c hc⟩
    have hmem : ∀ c ∈ cs', Item.com c ∈ bom ++ coms cs' ++ ss ++ es := by
      intro c hc
      simp [mem_coms, hc]
    cases hs : p.syntax_ with
    | some x => exact .inr (.inl ⟨x, rfl, by rw [e3 x hs]; exact hmem⟩)
    | none =>
      cases he : p.edition with
      | some x => exact .inr (.inr ⟨x, rfl, by rw [e5 x he]; exact hmem⟩)
      | none =>
        rw [hs] at e2
        rw [he] at e4
        cases e2
        cases e4
        refine .inl ⟨rfl, rfl, ?_⟩
        rcases e1 with rfl | ⟨lost, t, rfl, ht⟩
        · left; simp [toks_append]
        · right; simp [toks_append, ht]

/-- The tree is one message without any comment. -/
def bareMessage (p : Proto) : Bool :=
  p.syntax_.isNone && p.edition.isNone && match p.protoBody with
    | [.message x] => x.comments.isEmpty && x.inlineComment.isNone && x.inlineCommentBehindLeftCurly.isNone &&
        x.messageBody.isEmpty
    | _ => false

/-- C31 is violated: a comment before the first statement of a file, comments in an empty message, and
a comment between the tokens of a statement are not in the tree. -/
theorem comments_lost_violation :
    accepts bareMessage (parse 50 c!"// a\nmessage M {}" [withBodyIncludingComments true]) = true ∧
    accepts bareMessage (parse 50 c!"message M { // b\n // c\n }" [withBodyIncludingComments true]) = true ∧
    accepts bareMessage (parse 50 c!"message /* d */ M /* e */ {}" [withBodyIncludingComments true]) = true := by
  decide +kernel

/-- A file with comments in many places, most of which are recorded. -/
def commented : Str := c!"// a\nsyntax = \"proto3\"; // b\n\n// c\n/* d */ message M { // e\n" ++
  c!"  // f\n  int32 x = 1; // g\n  // h\n  oneof o { // i\n // j\n int32 y = 2; /* k */ } // l\n  // m\n}\n// n\n"

def rawsOf (cs : List Verif.Comment) : List Str := cs.map (·.raw)

def commentedCheck (p : Proto) : Bool :=
  p.syntax_.any (fun s => rawsOf s.comments = [c!"// a"] && rawsOf s.inlineComment.toList = [c!"// b"]) &&
  match p.protoBody with
  | [.message m, .comment n] =>
    decide (rawsOf m.comments = [c!"// c", c!"/* d */"]) &&
      decide (rawsOf m.inlineCommentBehindLeftCurly.toList = [c!"// e"]) && decide (n.raw = c!"// n") &&
    match m.messageBody with
    | [.field x, .oneof o, .comment c] =>
      decide (rawsOf x.comments = [c!"// f"]) && decide (rawsOf x.inlineComment.toList = [c!"// g"]) &&
      decide (rawsOf o.comments = [c!"// h"]) && decide (rawsOf o.inlineComment.toList = [c!"// l"]) &&
      decide (rawsOf o.inlineCommentBehindLeftCurly.toList = [c!"// i"]) && decide (c.raw = c!"// m") &&
      match o.oneofFields with
      | [y] => decide (rawsOf y.comments = [c!"// j"]) && decide (rawsOf y.inlineComment.toList = [c!"/* k */"])
      | _ => false
    | _ => false
  | _ => false

/-- The theorems of this file apply to `commented`. -/
theorem commented_accepted : NulFree commented ∧ NoGroup commented ∧
    accepts commentedCheck (parse 300 commented [withBodyIncludingComments true]) = true := by
  refine ⟨by unfold NulFree; decide +kernel, ?_, by decide +kernel⟩
  unfold NoGroup
  decide +kernel

/-- A service whose rpc headers have comments between their tokens. -/
def embedded : Str := c!"service S {\n // a\n rpc /* b */ A (/* c */ M) // d\n returns (N) /* e */ { // f\n" ++
  c!" /* g */ option (x) = 1; } // h\n rpc B(stream M /* i */) returns /* j */ (N) /* k */; // l\n}\n"

def embeddedCheck (p : Proto) : Bool :=
  match p.protoBody with
  | [.service s] =>
    match s.serviceBody with
    | [.rpc x, .rpc y] =>
      decide (rawsOf x.comments = [c!"// a"]) && decide (rawsOf x.inlineComment.toList = [c!"// h"]) &&
      decide (rawsOf x.embeddedComments = [c!"/* b */", c!"/* c */", c!"// d", c!"/* e */"]) &&
      decide (rawsOf x.inlineCommentBehindLeftCurly.toList = [c!"// f"]) &&
      decide (rawsOf y.comments = []) && decide (rawsOf y.inlineComment.toList = [c!"// l"]) &&
      decide (rawsOf y.embeddedComments = [c!"/* i */", c!"/* j */", c!"/* k */"])
    | _ => false
  | _ => false

/-- The embedded comments of an rpc, given by `Com.rpc` and `Com.noOptions`, on a text; `/* g */` is lost. -/
theorem embedded_accepted : NulFree embedded ∧ NoGroup embedded ∧
    accepts embeddedCheck (parse 300 embedded [withBodyIncludingComments true]) = true := by
  refine ⟨by unfold NulFree; decide +kernel, ?_, by decide +kernel⟩
  unfold NoGroup
  decide +kernel

end Verif.Props
