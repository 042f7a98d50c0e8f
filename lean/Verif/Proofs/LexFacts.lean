import Verif.Proofs.LexFn
import Verif.Spec.Lexical

/-!
# Facts about `lex`
-/

set_option backward.isDefEq.respectTransparency false
set_option backward.dsimp.instances true

namespace Verif
namespace Scanner
open M Spec

theorem lexLoop_fuel (m : Mode) (n : Nat) : ∀ (k : Nat) (t : Str), t.length < n → t.length < k →
    lexLoop m n t = lexLoop m k t := by
  induction n with
  | zero => intro k t h; omega
  | succ n ih =>
    intro k t hn hk
    cases k with
    | zero => omega
    | succ k =>
      cases t with
      | nil => rw [lexLoop_token (by decide) (by decide), lexLoop_token (by decide) (by decide)]
      | cons c r =>
        by_cases h1 : isSpace c
        · rw [lexLoop_space h1, lexLoop_space h1, ih k r (by simp at hn; omega) (by simp at hk; omega)]
        · by_cases h2 : c = '/'
          · subst h2
            cases hp : (commentPiece ('/' :: r)).2.2 with
            | some e => rw [lexLoop_comment_err hp, lexLoop_comment_err hp]
            | none =>
              cases hm : m.comment with
              | true => rw [lexLoop_comment_tok hp hm, lexLoop_comment_tok hp hm]
              | false =>
                obtain ⟨a, x, h5, h6⟩ := commentPiece_prefix r
                rw [lexLoop_comment_skip hp hm, lexLoop_comment_skip hp hm]
                rw [ih k]
                · rw [h5]; simp at hn ⊢; omega
                · rw [h5]; simp at hk ⊢; omega
          · rw [lexLoop_token (by simpa using h1) (by simpa using h2),
              lexLoop_token (by simpa using h1) (by simpa using h2)]

theorem lex_eq_loop {m : Mode} {n : Nat} {t : Str} (h : t.length < n) : lexLoop m n t = lex m t :=
  lexLoop_fuel m n _ t h (by simp)

theorem lex_space {m : Mode} {c : Char} {r : Str} (h : isSpace c) :
    lex m (c :: r) = (lex m r).push [c] := by
  unfold lex; rw [lexLoop_space h]; rw [lex_eq_loop (by simp)]; rfl

theorem lex_token {m : Mode} {t : Str} (h : ¬ isSpace (hd t)) (h' : hd t ≠ '/') :
    lex m t = tokenAt m t := lexLoop_token h h'

theorem lex_comment_err {m : Mode} {r : Str} {e : String × Char}
    (h : (commentPiece ('/' :: r)).2.2 = some e) :
    lex m ('/' :: r) =
      { body := (commentPiece ('/' :: r)).2.1, token := .illegal, err := some e } :=
  lexLoop_comment_err h

theorem lex_comment_tok {m : Mode} {r : Str} (h : (commentPiece ('/' :: r)).2.2 = none)
    (hm : m.comment = true) :
    lex m ('/' :: r) =
      { coms := [([], (commentPiece ('/' :: r)).1)], body := (commentPiece ('/' :: r)).2.1,
        token := .comment, text := (commentPiece ('/' :: r)).1 } :=
  lexLoop_comment_tok h hm

theorem lex_comment_skip {m : Mode} {r : Str} (h : (commentPiece ('/' :: r)).2.2 = none)
    (hm : m.comment = false) :
    lex m ('/' :: r) =
      let o := (lex m (('/' :: r).drop (commentPiece ('/' :: r)).2.1.length)).push
        (commentPiece ('/' :: r)).2.1
      { o with coms := ([], (commentPiece ('/' :: r)).1) :: o.coms } := by
  obtain ⟨a, x, h5, h6⟩ := commentPiece_prefix r
  unfold lex
  rw [lexLoop_comment_skip h hm, lex_eq_loop]
  · rfl
  · rw [h5]; simp; omega

/-! ## White space -/

theorem white_iff {c : Char} : White c ↔ isSpace c = true := by
  simp only [White, whiteSpace, isSpace, decide_eq_true_eq, List.mem_cons, List.not_mem_nil, or_false]
  omega

/-! ## Comments -/

theorem blockBody_some {t b : Str} (h : blockBody t = some b) :
    ∃ b', b = b' ++ ['*', '/'] ∧ FirstEnd b' := by
  induction t generalizing b with
  | nil => simp [blockBody] at h
  | cons c t ih =>
    simp only [blockBody] at h
    split at h
    · injection h with h
      subst h
      refine ⟨[], rfl, ?_⟩
      intro x y hxy
      have := congrArg List.length hxy
      simp at this
      exact List.eq_nil_of_length_eq_zero (by omega)
    · next hc =>
      simp only [Option.map_eq_some_iff] at h
      obtain ⟨b1, h1, rfl⟩ := h
      obtain ⟨r, hr⟩ := blockBody_prefix h1
      obtain ⟨b', rfl, hf⟩ := ih h1
      refine ⟨c :: b', rfl, ?_⟩
      intro x y hxy
      cases x with
      | nil =>
        exfalso
        apply hc
        simp at hxy
        refine ⟨hxy.1, ?_⟩
        rw [← hr, hxy.2]
        rfl
      | cons d x =>
        simp at hxy
        exact hf x y (by simpa using hxy.2)

theorem blockBody_of_firstEnd {b : Str} (h : FirstEnd b) (r : Str) :
    blockBody (b ++ ['*', '/'] ++ r) = some (b ++ ['*', '/']) := by
  induction b with
  | nil => simp [blockBody]
  | cons c b ih =>
    have hb : FirstEnd b := by
      intro x y hxy
      exact h (c :: x) y (by simp at hxy ⊢; exact hxy)
    have := ih hb
    simp only [List.cons_append, blockBody]
    rw [if_neg, this]
    · rfl
    · rintro ⟨rfl, h2⟩
      cases b with
      | nil => simp at h2
      | cons d b =>
        simp at h2
        subst h2
        have := h [] (b ++ ['*', '/']) (by simp)
        simp at this

theorem all_ne_of_not_mem {b : Str} {c : Char} (h : c ∉ b) : ∀ x ∈ b, decide (x ≠ c) = true := by
  intro x hx
  have : x ≠ c := fun e => h (e ▸ hx)
  simpa using this

theorem takeWhile_ne_of_not_mem {b : Str} {c : Char} (h : c ∉ b) (r : Str) :
    (b ++ c :: r).takeWhile (· ≠ c) = b := by
  rw [takeWhile_append_of_all (all_ne_of_not_mem h)]
  simp

theorem takeWhile_ne_of_not_mem' {b : Str} {c : Char} (h : c ∉ b) :
    b.takeWhile (· ≠ c) = b := by
  have := takeWhile_append_of_all (p := (· ≠ c)) (b := []) (all_ne_of_not_mem h)
  simpa using this

theorem not_mem_takeWhile (c : Char) (r : Str) : c ∉ r.takeWhile (· ≠ c) := by
  intro h
  have := mem_takeWhile h
  simp at this

theorem lineEnd_cases (r : Str) :
    (∃ x, lineEnd r = ['\n'] ∧ r = r.takeWhile (· ≠ '\n') ++ '\n' :: x) ∨
    (lineEnd r = [] ∧ r.takeWhile (· ≠ '\n') = r) := by
  have h := List.takeWhile_append_dropWhile (p := (· ≠ '\n')) (l := r)
  unfold lineEnd
  cases hd : r.dropWhile (· ≠ '\n') with
  | nil => right; rw [hd] at h; exact ⟨rfl, by simpa using h⟩
  | cons c x =>
    left
    have hc := List.head_dropWhile_not (· ≠ '\n') (l := r) (by rw [hd]; simp)
    simp only [hd, List.head_cons] at hc
    simp at hc
    subst hc
    rw [hd] at h
    exact ⟨x, rfl, h.symm⟩

/-- A comment that the scanner accepts is a comment of the language. -/
theorem commentPiece_sound {r : Str} (h : (commentPiece ('/' :: r)).2.2 = none) :
    ∃ x, '/' :: r = (commentPiece ('/' :: r)).2.1 ++ x ∧
      Spec.Comment x (commentPiece ('/' :: r)).2.1 (commentPiece ('/' :: r)).1 := by
  cases r with
  | nil => simp [commentPiece, eof] at h
  | cons d r =>
    by_cases h1 : d = '/'
    · subst h1
      have e : commentPiece ('/' :: '/' :: r) = (c!"//" ++ r.takeWhile (· ≠ '\n'),
          (c!"//" ++ r.takeWhile (· ≠ '\n') ++ lineEnd r, none)) := by simp [commentPiece]
      rw [e]
      rcases lineEnd_cases r with ⟨x, h2, h3⟩ | ⟨h2, h3⟩
      · refine ⟨x, ?_, ?_⟩
        · rw [h2]; simp only [List.cons_append, List.nil_append, List.append_assoc, List.cons.injEq, true_and]
          exact h3
        · rw [h2]; exact .line _ (not_mem_takeWhile _ _)
      · refine ⟨[], ?_, ?_⟩
        · rw [h2, h3]; simp
        · rw [h2]
          have := Comment.last (rest := []) (r.takeWhile (· ≠ '\n')) (not_mem_takeWhile _ _) rfl
          simpa using this
    · by_cases h2 : d = '*'
      · subst h2
        cases hb : blockBody r with
        | none => simp [commentPiece, hb] at h
        | some b =>
          have e : commentPiece ('/' :: '*' :: r) = (c!"/*" ++ b, (c!"/*" ++ b, none)) := by
            simp [commentPiece, hb]
          rw [e]
          obtain ⟨x, rfl⟩ := blockBody_prefix hb
          obtain ⟨b', rfl, hf⟩ := blockBody_some hb
          refine ⟨x, by simp, ?_⟩
          have := Comment.block (rest := x) b' hf
          simpa using this
      · simp [commentPiece, h1, h2] at h

/-- Every comment of the language is accepted by the scanner, whole. -/
theorem commentPiece_complete {raw text rest : Str} (h : Spec.Comment rest raw text) :
    ∃ r, raw = '/' :: r ∧ commentPiece (raw ++ rest) = (text, (raw, none)) := by
  cases h with
  | line b hb =>
    refine ⟨_, rfl, ?_⟩
    have : (b ++ '\n' :: rest).takeWhile (· ≠ '\n') = b := takeWhile_ne_of_not_mem hb rest
    have h2 : lineEnd (b ++ '\n' :: rest) = ['\n'] := by
      unfold lineEnd
      rw [dropWhile_append_of_all (all_ne_of_not_mem hb)]
      simp
    simp only [commentPiece, List.cons_append, List.nil_append, List.tail_cons, hd_cons, if_true,
      List.append_assoc, this, h2]
  | last b hb hr =>
    subst hr
    refine ⟨_, rfl, ?_⟩
    have h1 : b.takeWhile (· ≠ '\n') = b := takeWhile_ne_of_not_mem' hb
    have h2 : lineEnd b = [] := by
      have := dropWhile_append_of_all (p := (· ≠ '\n')) (b := [])
        (all_ne_of_not_mem hb)
      unfold lineEnd
      simp at this ⊢
      simp [this]
    simp only [commentPiece, List.cons_append, List.nil_append, List.tail_cons, hd_cons, if_true,
      List.append_nil, h1, h2]
  | block b hb =>
    refine ⟨_, rfl, ?_⟩
    have := blockBody_of_firstEnd hb rest
    simp only [List.append_assoc, List.cons_append, List.nil_append] at this
    simp [commentPiece, this]

/-! ## The shape of a scan -/

/-- What `lex` does after the gap `g` with comments `cs`. -/
def LexOut.withGap (g : Str) (cs : List (Str × Str)) (o : LexOut) : LexOut :=
  { o with gap := g, coms := cs ++ o.coms.map (fun c => (g ++ c.1, c.2)) }

/-- A scan skips a gap; then there is a token, a comment that is returned, or a bad comment. -/
theorem lex_cases (m : Mode) (t : Str) :
    ∃ g cs t', t = g ++ t' ∧ Gap (!m.comment) t' g cs ∧ ¬ isSpace (hd t') ∧
      ((hd t' ≠ '/' ∧ lex m t = (tokenAt m t').withGap g cs) ∨
       (∃ r e, t' = '/' :: r ∧ (commentPiece t').2.2 = some e ∧ lex m t = LexOut.withGap g cs
          { body := (commentPiece t').2.1, token := .illegal, err := some e }) ∨
       (∃ r, t' = '/' :: r ∧ m.comment = true ∧ (commentPiece t').2.2 = none ∧
          lex m t = LexOut.withGap g cs
            { coms := [([], (commentPiece t').1)], body := (commentPiece t').2.1, token := .comment,
              text := (commentPiece t').1 })) := by
  generalize hk : t.length = k
  induction k using Nat.strongRecOn generalizing t with
  | ind k ih =>
    by_cases h1 : isSpace (hd t)
    · obtain ⟨c, r, rfl⟩ : ∃ c r, t = c :: r := by
        cases t with
        | nil => exact absurd h1 (by decide)
        | cons c r => exact ⟨c, r, rfl⟩
      simp only [hd_cons] at h1
      obtain ⟨g, cs, t', h2, h3, h4, h5⟩ := ih r.length (by simp at hk; omega) r rfl
      refine ⟨c :: g, cs.map (fun p => (c :: p.1, p.2)), t', by simp [h2],
        .space c g cs (white_iff.2 h1) h3, h4, ?_⟩
      rw [lex_space h1]
      have key : ∀ o : LexOut, (o.withGap g cs).push [c] =
          o.withGap (c :: g) (cs.map (fun p => (c :: p.1, p.2))) := by
        intro o; simp [LexOut.withGap, LexOut.push, Function.comp_def]
      rcases h5 with ⟨a, b⟩ | ⟨r', e, a, b, d⟩ | ⟨r', a, b, d, e⟩
      · exact .inl ⟨a, by rw [b, key]⟩
      · exact .inr (.inl ⟨r', e, a, b, by rw [d, key]⟩)
      · exact .inr (.inr ⟨r', a, b, d, by rw [e, key]⟩)
    · by_cases h2 : hd t = '/'
      · obtain ⟨r, rfl⟩ := hd_ne_eof (by decide) h2
        cases hp : (commentPiece ('/' :: r)).2.2 with
        | some e =>
          refine ⟨[], [], '/' :: r, rfl, .nil, h1, .inr (.inl ⟨r, e, rfl, hp, ?_⟩)⟩
          rw [lex_comment_err hp]; rfl
        | none =>
          cases hm : m.comment with
          | true =>
            refine ⟨[], [], '/' :: r, rfl, .nil, h1, .inr (.inr ⟨r, rfl, rfl, hp, ?_⟩)⟩
            rw [lex_comment_tok hp hm]
            rfl
          | false =>
            obtain ⟨x, h3, h4⟩ := commentPiece_sound hp
            have hlen : x.length < k := by
              obtain ⟨a, _, ha, _⟩ := commentPiece_prefix r
              have := congrArg List.length h3
              rw [ha] at this
              simp at this hk
              omega
            obtain ⟨g, cs, t', h5, h6, h7, h8⟩ := ih x.length hlen x rfl
            have hdrop : ('/' :: r).drop (commentPiece ('/' :: r)).2.1.length = x := by
              have := congrArg (List.drop (commentPiece ('/' :: r)).2.1.length) h3
              rwa [List.drop_left] at this
            rw [lex_comment_skip hp hm, hdrop]
            simp only [hm, Bool.not_false] at h6 ⊢
            generalize hraw : (commentPiece ('/' :: r)).2.1 = raw at *
            generalize htext : (commentPiece ('/' :: r)).1 = text at *
            refine ⟨raw ++ g, ([], text) :: cs.map (fun p => (raw ++ p.1, p.2)), t', by rw [h3, h5]; simp,
              .comment raw text g cs rfl (h5 ▸ h4) h6, h7, ?_⟩
            have key : ∀ o : LexOut,
                ({ (o.withGap g cs).push raw with
                    coms := ([], text) :: ((o.withGap g cs).push raw).coms } : LexOut) =
                o.withGap (raw ++ g) (([], text) :: cs.map (fun p => (raw ++ p.1, p.2))) := by
              intro o; simp [LexOut.withGap, LexOut.push, Function.comp_def]
            rcases h8 with ⟨a, b⟩ | ⟨r', e, a, b, d⟩ | ⟨r', a, b, d, e⟩
            · exact .inl ⟨a, by rw [b]; exact key _⟩
            · exact .inr (.inl ⟨r', e, a, b, by rw [d]; exact key _⟩)
            · rw [hm] at b; cases b
      · refine ⟨[], [], t, rfl, .nil, h1, .inl ⟨h2, ?_⟩⟩
        rw [lex_token h1 h2]
        simp [LexOut.withGap]
        have h3 := tokenAt_gap m t
        have h4 := tokenAt_coms m t
        generalize tokenAt m t = o at *
        cases o
        simp at h3 h4
        simp [h3, h4]

/-- Scanning a gap of the language. -/
theorem lex_gap {m : Mode} {rest g : Str} {cs : List (Str × Str)} (h : Gap (!m.comment) rest g cs) :
    lex m (g ++ rest) =
      { lex m rest with
          gap := g ++ (lex m rest).gap
          coms := cs ++ (lex m rest).coms.map (fun c => (g ++ c.1, c.2)) } := by
  induction h with
  | nil => simp
  | space c g cs hc hg ih =>
    rw [List.cons_append, lex_space (white_iff.1 hc), ih]
    simp [LexOut.push, Function.comp_def]
  | comment raw text g cs hm hc hg ih =>
    obtain ⟨r, hr, h2⟩ := commentPiece_complete hc
    have hm' : m.comment = false := by simpa using hm
    rw [List.append_assoc]
    have e : raw ++ (g ++ rest) = '/' :: (r ++ (g ++ rest)) := by rw [hr]; rfl
    have hp : (commentPiece ('/' :: (r ++ (g ++ rest)))).2.2 = none := by rw [← e, h2]
    rw [e, lex_comment_skip hp hm', ← e, h2]
    simp only [List.drop_left]
    rw [ih]
    simp [LexOut.push, Function.comp_def]

end Scanner
end Verif
