import Verif.Proofs.CompleteBody
import Verif.Proofs.ParseMessage

/-!
# Messages and groups are accepted
-/

set_option backward.isDefEq.respectTransparency false
set_option backward.dsimp.instances true

namespace Verif
variable {T : Src} {calm : Bool}
open Spec Scanner Lexer
open M (bind_ok run_get)

/-! ## What is a group -/

theorem curlyAt_iff {l : Lexer} : CurlyAt l.scanner.inp ↔ (nextSt {} l).token = .leftCurly := Iff.rfl

theorem numberAt_iff {l : Lexer} : NumberAt l.scanner.inp ↔
    (nextSt .numberLit l).token = .intLit ∧ CurlyAt (nextSt .numberLit l).scanner.inp := by
  rw [nextSt_inp]; exact Iff.rfl

theorem equalsAt_iff {l : Lexer} : EqualsAt l.scanner.inp ↔
    (nextSt {} l).token = .equals ∧ NumberAt (nextSt {} l).scanner.inp := by
  rw [nextSt_inp]; exact Iff.rfl

theorem nameAt_iff {l : Lexer} : NameAt l.scanner.inp ↔
    (nextSt {} l).token = .ident ∧ isCapitalized (nextSt {} l).text = true ∧
      EqualsAt (nextSt {} l).scanner.inp := by
  rw [nextSt_inp]; exact Iff.rfl

theorem keywordAt_iff {l : Lexer} : KeywordAt l.scanner.inp ↔
    (nextSt .kw l).token = .kGroup ∧ NameAt (nextSt .kw l).scanner.inp := by
  rw [nextSt_inp]; exact Iff.rfl

theorem groupAhead_iff {l : Lexer} : GroupAhead l.scanner.inp ↔
    (IsLabel (nextSt .kw l).token ∧ KeywordAt (nextSt .kw l).scanner.inp) ∨
    (¬ IsLabel (nextSt .kw l).token ∧ KeywordAt l.scanner.inp) := by
  rw [nextSt_inp]; exact Iff.rfl

theorem keywordAt_group {l : Lexer} {n i : Str} {ws : List Str} (hn : Word n) {c : Char} {w : Str}
    (hc : n = c :: w) (hcap : Capital c) (hi : IntLit i)
    (h : Ahead T l ([c!"group", n, c!"=", i, c!"{"] ++ ws)) : KeywordAt l.scanner.inp := by
  rw [keywordAt_iff]
  obtain ⟨t1, _, k1⟩ := Ahead.next (w := c!"group") h (m := .kw) rfl (tokIs_keyword (t := .kGroup) rfl rfl rfl rfl)
  refine ⟨t1, ?_⟩
  generalize nextSt .kw l = l1 at *
  rw [nameAt_iff]
  obtain ⟨t2, e2, k2⟩ := k1.next (m := {}) rfl (tokIs_ident hn)
  refine ⟨t2, ?_, ?_⟩
  · rw [e2, hc]
    simp only [isCapitalized, isUpper, decide_eq_true_eq]
    exact Parser.mem_capitals.1 hcap
  generalize nextSt {} l1 = l2 at *
  rw [equalsAt_iff]
  obtain ⟨t3, _, k3⟩ := k2.next (m := {}) rfl tokIs_equals
  refine ⟨t3, ?_⟩
  generalize nextSt {} l2 = l3 at *
  rw [numberAt_iff]
  obtain ⟨t4, _, k4⟩ := k3.next (m := .numberLit) rfl (tokIs_int rfl hi)
  refine ⟨t4, ?_⟩
  generalize nextSt .numberLit l3 = l4 at *
  rw [curlyAt_iff]
  exact (k4.next (m := {}) rfl tokIs_lcurly).1

theorem not_keywordAt {l : Lexer} {w : Str} {ws : List Str} (hw : Lead w) (hne : w ≠ c!"group")
    (h : Ahead T l (w :: ws)) : ¬ KeywordAt l.scanner.inp := by
  rw [keywordAt_iff]
  exact fun hk => Ahead.ne_keyword h hw rfl hne hk.1

/-- A field is no group: after its number there is no left curly. -/
theorem keywordAt_field {G : Gram} {l : Lexer} {s n i : Str} {ws os rest : List Str} {xs : List FieldOption}
    (hs : TypeName s ws) (hn : Word n) (hi : IntLit i) (ho : FieldOptions G xs os)
    (h : Ahead T l (ws ++ ([n, c!"=", i] ++ os ++ c!";" :: rest))) : ¬ KeywordAt l.scanner.inp := by
  have key : ∀ {s : Str} {ws : List Str}, FullIdent s ws →
      Ahead T l (ws ++ ([n, c!"=", i] ++ os ++ c!";" :: rest)) → ¬ KeywordAt l.scanner.inp := by
    intro s ws hs h
    obtain ⟨w, ds, hw, hds, rfl, rfl⟩ := FullIdent.split hs
    by_cases hg : w = c!"group"
    · subst hg
      rw [keywordAt_iff]
      rintro ⟨_, hk⟩
      obtain ⟨t1, _, k1⟩ := Ahead.next (w := c!"group") (ws := dotted ds ++ ([n, c!"=", i] ++ os ++ c!";" :: rest))
        h (m := .kw) rfl (tokIs_keyword (t := .kGroup) rfl rfl rfl rfl)
      generalize nextSt .kw l = l1 at *
      rw [nameAt_iff] at hk
      obtain ⟨hk1, _, hk⟩ := hk
      cases ds with
      | cons d ds =>
        rw [(Ahead.next (w := c!".") k1 (m := {}) rfl tokIs_dot).1] at hk1
        simp at hk1
      | nil =>
        obtain ⟨_, _, k2⟩ := Ahead.next (w := n) k1 (m := {}) rfl (tokIs_ident hn)
        generalize nextSt {} l1 = l2 at *
        rw [equalsAt_iff] at hk
        replace hk := hk.2
        obtain ⟨_, _, k3⟩ := k2.next (m := {}) rfl tokIs_equals
        generalize nextSt {} l2 = l3 at *
        rw [numberAt_iff] at hk
        replace hk := hk.2
        obtain ⟨_, _, k4⟩ := k3.next (m := .numberLit) rfl (tokIs_int rfl hi)
        generalize nextSt .numberLit l3 = l4 at *
        rw [curlyAt_iff] at hk
        refine Ahead.ne_punct (t := .leftCurly) k4 rfl rfl (bad := ['{']) ?_ (by simp) hk
        cases ho with
        | none => exact free_cons (by decide)
        | some => exact free_cons (by decide)
    · exact not_keywordAt (.inl hw) hg h
  cases hs with
  | scalar hs =>
    refine not_keywordAt (.inl (scalars_word _ hs)) ?_ h
    rintro rfl
    revert hs
    decide
  | named ws hm hn =>
    cases hm with
    | plain s ws hs => exact key hs h
    | dot s ws hs => exact not_keywordAt (.inr rfl) (by decide) h

theorem isLabel_word {l : Lexer} {w : Str} {ws : List Str} (h : Ahead T l (w :: ws)) (hw : Lead w)
    (hn : w ∉ labelWords) : ¬ IsLabel (nextSt .kw l).token := by
  simp only [labelWords, List.mem_cons, not_or] at hn
  rintro (h' | h' | h')
  · exact Ahead.ne_keyword h hw rfl hn.1 h'
  · exact Ahead.ne_keyword h hw rfl hn.2.1 h'
  · exact Ahead.ne_keyword h hw rfl hn.2.2.1 h'

/-- After the label. -/
theorem groupAhead_labelled {l : Lexer} {a b c : Bool} {ls us : List Str} (hs : Labelled a b c ls)
    (hu : ∃ w us', us = w :: us' ∧ Lead w ∧ (ls = [] → w ∉ labelWords)) (h : Ahead T l (ls ++ us)) :
    ∃ l', Ahead T l' us ∧ (GroupAhead l.scanner.inp ↔ KeywordAt l'.scanner.inp) := by
  have lab : ∀ {t : Token} {w : Str}, spelling t = some w → IsLabel t → Ahead T l (w :: us) →
      ∃ l', Ahead T l' us ∧ (GroupAhead l.scanner.inp ↔ KeywordAt l'.scanner.inp) := by
    intro t w ht hlab h
    obtain ⟨t1, _, k1⟩ := h.next (m := .kw) rfl (tokIs_keyword rfl rfl rfl ht)
    refine ⟨_, k1, ?_⟩
    rw [groupAhead_iff]
    rw [t1]
    simp [hlab]
  cases hs with
  | none =>
    obtain ⟨w, us', rfl, hw, hn⟩ := hu
    refine ⟨l, h, ?_⟩
    rw [groupAhead_iff]
    have := isLabel_word (by simpa using h) hw (hn rfl)
    simp [this]
  | repeated => exact lab (t := .kRepeated) rfl (.inl rfl) h
  | required => exact lab (t := .kRequired) rfl (.inr (.inl rfl)) h
  | optional => exact lab (t := .kOptional) rfl (.inr (.inr rfl)) h

theorem not_groupAhead_field {G : Gram} {l : Lexer} {x : Field} {ts : List Tok} {rest : List Str}
    (hx : FieldToks G x ts) (h : Ahead T l (words ts ++ rest)) : ¬ GroupAhead l.scanner.inp := by
  obtain ⟨hn, hi, ls, ws, os, h1, h2, h3, h4, h5, _⟩ := hx
  rw [h5] at h
  obtain ⟨w, ws', e, hw⟩ := typeName_lead h2
  obtain ⟨l', k, hiff⟩ := groupAhead_labelled (l := l)
    (us := ws ++ ([x.fieldName, c!"=", x.fieldNumber] ++ os ++ c!";" :: rest)) h1
    ⟨w, ws' ++ ([x.fieldName, c!"=", x.fieldNumber] ++ os ++ c!";" :: rest), by rw [e]; rfl, hw,
      fun hls => h3 hls w (by simp [e])⟩ (by simpa using h)
  rw [hiff]
  exact keywordAt_field h2 hn hi h4 k

theorem not_groupAhead_semi {l : Lexer} {rest : List Str} (h : Ahead T l (c!";" :: rest)) :
    ¬ GroupAhead l.scanner.inp := by
  rw [groupAhead_iff, keywordAt_iff (l := l), h.semi_keyword]
  simp [IsLabel]

namespace Parser

section
variable {H : Halt → Prop} {E : Err → Lexer → Prop} {l : Lexer} {rest : List Str} {cfg : Cfg} {G : Gram}

/-- What the parser of the bodies of nested messages has to do. -/
def BodyGo (H : Halt → Prop) (cfg : Cfg) (G : Gram) (d : Nat) (body : P Body) : Prop :=
  ∀ {T : Src} {E : Err → Lexer → Prop} {l : Lexer} {rest tl : List Str} {vs : List Visitee} {bs : List Tok},
    Spec.Body G .message vs bs → (tl = [] ∨ (cfg.permissive = true ∧ tl = [c!";"])) →
    (cfg.permissive = true → tl = [] → Free [';'] rest) →
    Ahead T l (c!"{" :: (words bs ++ c!"}" :: (tl ++ rest))) → bs.length < d → bs.length < cfg.fuel →
    Sat H (Loop T [] vs rest) E (body l)

theorem messageWith_go {d : Nat} {body : P Body} (hbody : BodyGo H cfg G d body)
    (hG : G.permissive = cfg.permissive)
    {x : Message} {hd bs cl : List Tok} (h1 : words hd = [c!"message", x.messageName, c!"{"]) (hn : Word x.messageName)
    (hb : Spec.Body G .message x.messageBody bs) (hc : Close G cl) (hs : Shut cfg (hd ++ bs ++ cl) rest)
    (hd' : bs.length < d) (hfu : bs.length < cfg.fuel)
    (h : Ahead T l (words (hd ++ bs ++ cl) ++ rest)) :
    Sat H (fun r l' => (r.messageName = x.messageName ∧ bareAll r.messageBody = bareAll x.messageBody) ∧
      Ahead T l' rest) E (parseMessageWith body l) := by
  obtain ⟨tl, e, h4⟩ := Close.split hc
  rw [words_append, words_append, h1, e] at h
  unfold parseMessageWith
  refine go_expect (w := c!"message") (by simpa using h) (.with_ _) rfl (tokIs_keyword rfl rfl rfl rfl)
    (fun l1 _ _ k1 => ?_)
  rw [sat_position]
  refine go_expect k1 .next rfl (tokIs_ident hn) (fun l2 _ e2 k2 => ?_)
  rw [sat_txt]
  refine Sat.bind (hbody hb (by rw [← hG]; exact h4)
    (hs.close (tl := tl) (by simp only [words_append, e]; rfl)) k2 hd' hfu) ?_
  rintro ⟨b, c, p⟩ l3 ⟨e3, k3⟩
  rw [bareAll, List.nil_append] at e3
  exact ⟨⟨e2, e3⟩, k3⟩

theorem group_word : Lead c!"group" := .inl (spelling_word (t := .kGroup) rfl)

theorem groupWith_go {d : Nat} {body : P Body} (hbody : BodyGo H cfg G d body)
    (hG : G.permissive = cfg.permissive)
    {x : GroupField} {ls : List Str} {hd bs cl : List Tok}
    (hls : Labelled x.isRepeated x.isRequired x.isOptional ls)
    (h1 : words hd = ls ++ [c!"group", x.groupName, c!"=", x.fieldNumber, c!"{"])
    (hn : Word x.groupName) {c : Char} {w : Str} (hc' : x.groupName = c :: w) (hcap : Capital c)
    (hi : IntLit x.fieldNumber)
    (hb : Spec.Body G .message x.messageBody bs) (hc : Close G cl) (hs : Shut cfg (hd ++ bs ++ cl) rest)
    (hd' : bs.length < d) (hfu : bs.length < cfg.fuel)
    (h : Ahead T l (words (hd ++ bs ++ cl) ++ rest)) :
    Sat H (fun r l' => (r.isRepeated = x.isRepeated ∧ r.isRequired = x.isRequired ∧ r.isOptional = x.isOptional ∧
        r.groupName = x.groupName ∧ r.fieldNumber = x.fieldNumber ∧
        bareAll r.messageBody = bareAll x.messageBody) ∧
      Ahead T l' rest) E (parseGroupFieldWith body l) := by
  obtain ⟨tl, e, h4⟩ := Close.split hc
  rw [words_append, words_append, h1, e] at h
  unfold parseGroupFieldWith
  refine sat_nextWith h.good ?_
  rw [sat_position]
  refine Sat.bind (parseLabel_go (us := [c!"group", x.groupName, c!"=", x.fieldNumber, c!"{"] ++
    (words bs ++ c!"}" :: (tl ++ rest))) hls ⟨_, _, rfl, group_word, fun _ => by decide⟩ (by simpa using h)) ?_
  rintro r l1 ⟨rfl, k1⟩
  refine go_expect (w := c!"group") k1 (.with_ _) rfl (tokIs_keyword rfl rfl rfl rfl) (fun l2 _ _ k2 => ?_)
  refine go_expect k2 .next rfl (tokIs_ident hn) (fun l3 _ e3 k3 => ?_)
  rw [sat_txt, e3]
  have hup : isCapitalized x.groupName = true := by
    rw [hc']
    simp only [isCapitalized, isUpper, decide_eq_true_eq]
    exact Parser.mem_capitals.1 hcap
  refine sat_neg (by simp [hup]) ?_
  refine go_expect k3 .next rfl tokIs_equals (fun l4 _ _ k4 => ?_)
  refine Sat.bind (orUnexpected_go (parseFieldNumber_go hi k4)) ?_
  rintro r l5 ⟨rfl, k5⟩
  refine Sat.bind (hbody hb (by rw [← hG]; exact h4)
    (hs.close (tl := tl) (by simp only [words_append, e]; rfl)) k5 hd' hfu) ?_
  rintro ⟨b, c, p⟩ l6 ⟨e6, k6⟩
  rw [bareAll, List.nil_append] at e6
  exact ⟨⟨rfl, rfl, rfl, rfl, rfl, e6⟩, k6⟩

/-- The keywords of a message body that start another statement than a field. -/
abbrev switchTokens : List Token :=
  [.kEnum, .kMessage, .kOption, .kOneof, .kMap, .kExtend, .kReserved, .kExtensions]

theorem messageStmt_default {body : P Body} {cs : List Comment} {t : Token} (h : t ∉ switchTokens) :
    messageStmtK calm cfg body cs t = fieldStmtK calm cfg body cs := by
  unfold messageStmtK
  cases t <;> first | rfl | simp [switchTokens] at h

theorem not_switch {w : Str} {ws : List Str} (h : Ahead T l (w :: ws)) (hw : Lead w) (hn : w ∉ messageWords) :
    (nextSt .kw l).token ∉ switchTokens := by
  simp only [messageWords, List.mem_cons, not_or] at hn
  obtain ⟨n1, n2, n3, n4, n5, n6, n7, n8, _⟩ := hn
  simp only [switchTokens, List.mem_cons, not_or]
  exact ⟨Ahead.ne_keyword h hw rfl n1, Ahead.ne_keyword h hw rfl n2, Ahead.ne_keyword h hw rfl n3,
    Ahead.ne_keyword h hw rfl n4, Ahead.ne_keyword h hw rfl n5, Ahead.ne_keyword h hw rfl n6,
    Ahead.ne_keyword h hw rfl n7, Ahead.ne_keyword h hw rfl n8, by simp⟩

/-! ### Looking for a group logs nothing -/

theorem sat_unNextTo_log {α : Type} {Q : α → Lexer → Prop} {r : Str} {f : Unit → P α}
    (hf : ∀ l', l'.log = l.log → Sat H Q E (f () l')) : Sat H Q E ((unNextTo r >>= f) l) :=
  hf _ (unNextTo_log (r := r) (l := l) rfl)

/-- After the keyword `group`: a name and a number as in a group or in a field, or a dot. -/
inductive GroupName : List Str → Prop
  | name (n i : Str) (us : List Str) : Word n → IntLit i → GroupName (n :: c!"=" :: i :: us)
  | dot (us : List Str) : GroupName (c!"." :: us)

/-- Behind the label. -/
inductive GroupWords : List Str → Prop
  | other (w : Str) (us : List Str) : Lead w → w ≠ c!"group" → GroupWords (w :: us)
  | group (us : List Str) : GroupName us → GroupWords (c!"group" :: us)
  | semi (us : List Str) : GroupWords (c!";" :: us)

theorem peekGroupCurly_log {ws : List Str} (h : Ahead T l ws) :
    Sat H (fun _ l' => l'.log = l.log) E (peekGroupCurly l) := by
  unfold peekGroupCurly
  refine sat_next h.good ?_
  rw [sat_rawText, sat_tok]
  exact sat_unNextTo_log (fun l' h' => h'.trans (h.quiet (m := {}) (free_nil ws)))

theorem peekGroupNumber_log {i : Str} {us : List Str} (hi : IntLit i) (h : Ahead T l (i :: us)) :
    Sat H (fun _ l' => l'.log = l.log) E (peekGroupNumber l) := by
  unfold peekGroupNumber
  refine go_attempt (parseFieldNumber_go hi (ahead_log h.good h.laid)) ?_
  rintro r l1 ⟨_, k1⟩
  have e1 : l1.log = l.log := k1.log _ rfl
  rw [sat_rawText]
  refine Sat.bind (peekGroupCurly_log k1) ?_
  intro b l2 e2
  exact sat_unNextTo_log (fun l' h' => h'.trans (e2.trans e1))

theorem peekGroupName_log {us : List Str} (hu : GroupName us) (h : Ahead T l us) :
    Sat H (fun _ l' => l'.log = l.log) E (peekGroupName l) := by
  have e1 : (nextSt {} l).log = l.log := h.quiet (m := {}) (free_nil us)
  unfold peekGroupName
  refine sat_next h.good ?_
  rw [sat_rawText, sat_tok, sat_txt]
  refine sat_ite (fun _ => sat_unNextTo_log (fun l' h' => h'.trans e1)) (fun ht => ?_)
  refine sat_ite (fun _ => sat_unNextTo_log (fun l' h' => h'.trans e1)) (fun _ => ?_)
  cases hu with
  | dot us =>
    rw [(h.next (m := {}) rfl tokIs_dot).1] at ht
    simp at ht
  | name n i us hn hi =>
    have k1 := (h.next (m := {}) rfl (tokIs_ident hn)).2.2
    generalize nextSt {} l = l1 at *
    have e2 : (nextSt {} l1).log = l1.log := k1.quiet (m := {}) (free_nil _)
    refine Sat.bind (Q := fun _ l' => l'.log = l.log) ?_ (fun b l' h' => sat_unNextTo_log (fun l'' h'' => h''.trans h'))
    unfold peekGroupEquals
    refine sat_next k1.good ?_
    rw [sat_rawText, sat_tok]
    have k2 := (k1.next (m := {}) rfl tokIs_equals).2.2
    refine sat_ite (fun _ => sat_unNextTo_log (fun l' h' => h'.trans (e2.trans e1))) (fun _ => ?_)
    refine Sat.bind (peekGroupNumber_log hi k2) (fun b l' h' => ?_)
    exact sat_unNextTo_log (fun l'' h'' => h''.trans (h'.trans (e2.trans e1)))

theorem peekGroupKeyword_log {us : List Str} (hu : GroupWords us) (h : Ahead T l us) :
    Sat H (fun _ l' => l'.log = l.log) E (peekGroupKeyword l) := by
  have e1 : (nextSt .kw l).log = l.log := h.quiet (m := .kw) (free_nil us)
  unfold peekGroupKeyword
  refine sat_nextWith h.good ?_
  rw [sat_rawText, sat_tok]
  refine sat_ite (fun _ => sat_unNextTo_log (fun l' h' => h'.trans e1)) (fun ht => ?_)
  cases hu with
  | semi us => rw [h.semi_keyword] at ht; simp at ht
  | other w us hw hne => exact absurd (Ahead.ne_keyword h hw rfl hne) ht
  | group us hu =>
    have k1 := (Ahead.next (w := c!"group") h (m := .kw) rfl
      (tokIs_keyword (t := .kGroup) rfl rfl rfl rfl)).2.2
    refine Sat.bind (peekGroupName_log hu k1) (fun b l' h' => ?_)
    exact sat_unNextTo_log (fun l'' h'' => h''.trans (h'.trans e1))

/-- The words at the start of a statement of a message body that is no other statement. -/
inductive FieldWords : List Str → Prop
  | label (w : Str) (us : List Str) : w ∈ labelWords → GroupWords us → FieldWords (w :: us)
  | plain (us : List Str) : (∀ w ∈ us.head?, Lead w → w ∉ labelWords) → GroupWords us → FieldWords us

theorem peekIsGroup_log {ws : List Str} (hw : FieldWords ws) (h : Ahead T l ws) :
    Sat H (fun _ l' => l'.log = l.log) E (peekIsGroup l) := by
  have e1 : (nextSt .kw l).log = l.log := h.quiet (m := .kw) (free_nil ws)
  unfold peekIsGroup
  refine sat_nextWith h.good ?_
  rw [sat_tok]
  cases hw with
  | label w us hl hu =>
    have key : IsLabel (nextSt .kw l).token ∧ Ahead T (nextSt .kw l) us := by
      simp only [labelWords, List.mem_cons, List.not_mem_nil, or_false] at hl
      rcases hl with rfl | rfl | rfl
      · obtain ⟨t1, _, k1⟩ := Ahead.next (w := c!"repeated") h (m := .kw) rfl
          (tokIs_keyword (t := .kRepeated) rfl rfl rfl rfl)
        exact ⟨.inl t1, k1⟩
      · obtain ⟨t1, _, k1⟩ := Ahead.next (w := c!"required") h (m := .kw) rfl
          (tokIs_keyword (t := .kRequired) rfl rfl rfl rfl)
        exact ⟨.inr (.inl t1), k1⟩
      · obtain ⟨t1, _, k1⟩ := Ahead.next (w := c!"optional") h (m := .kw) rfl
          (tokIs_keyword (t := .kOptional) rfl rfl rfl rfl)
        exact ⟨.inr (.inr t1), k1⟩
    refine sat_pos key.1 ?_
    rw [sat_rawText]
    refine Sat.bind (peekGroupKeyword_log hu key.2) (fun b l' h' => ?_)
    exact sat_unNextTo_log (fun l'' h'' => h''.trans (h'.trans e1))
  | plain _ hn hu =>
    have key : ¬ IsLabel (nextSt .kw l).token := by
      cases hu with
      | semi us => rw [h.semi_keyword]; simp [IsLabel]
      | other w us hw _ => exact isLabel_word h hw (hn w rfl hw)
      | group us _ => exact isLabel_word h group_word (by decide)
    refine sat_neg key ?_
    refine sat_unNext ?_
    refine (peekGroupKeyword_log hu (h.putBack .kw)).mono (fun _ _ h' => h'.trans e1) (fun _ _ h => h)

theorem groupWords_type {s n i : Str} {ws us : List Str} (hs : TypeName s ws) (hn : Word n) (hi : IntLit i) :
    GroupWords (ws ++ n :: c!"=" :: i :: us) := by
  have key : ∀ {s : Str} {ws : List Str}, FullIdent s ws → GroupWords (ws ++ n :: c!"=" :: i :: us) := by
    intro s ws hs
    obtain ⟨w, ds, hw, hds, rfl, rfl⟩ := FullIdent.split hs
    by_cases hg : w = c!"group"
    · subst hg
      cases ds with
      | nil => exact .group _ (.name _ _ _ hn hi)
      | cons d ds => exact .group _ (.dot _)
    · exact .other _ _ (.inl hw) hg
  cases hs with
  | scalar hs =>
    refine .other _ _ (.inl (scalars_word _ hs)) ?_
    rintro rfl
    revert hs
    decide
  | named ws hm hn' =>
    cases hm with
    | plain s ws hs => exact key hs
    | dot s ws hs => exact .other _ _ (.inr rfl) (by decide)

theorem fieldWords_labelled {a b c : Bool} {ls us : List Str} (hs : Labelled a b c ls)
    (hn : ls = [] → ∀ w ∈ us.head?, w ∉ labelWords) (hu : GroupWords us) : FieldWords (ls ++ us) := by
  cases hs with
  | none => exact .plain _ (fun w hw _ => hn rfl w hw) hu
  | repeated => exact .label _ _ (by decide) hu
  | required => exact .label _ _ (by decide) hu
  | optional => exact .label _ _ (by decide) hu

theorem fieldWords_field {x : Field} {ts : List Tok} (hx : FieldToks G x ts) : FieldWords (words ts ++ rest) := by
  obtain ⟨hn, hi, ls, ws, os, h1, h2, h3, h4, h5, _⟩ := hx
  obtain ⟨w, ws', e, _⟩ := typeName_lead h2
  have := fieldWords_labelled (us := ws ++ x.fieldName :: c!"=" :: x.fieldNumber :: (os ++ c!";" :: rest)) h1
    (fun hls v hv => h3 hls v (by rw [e] at hv ⊢; exact hv)) (groupWords_type h2 hn hi)
  rw [h5]
  simpa using this

/-- Looking whether a group follows. -/
theorem go_isGroup {α : Type} {Q : α → Lexer → Prop} {f : Bool → P α} {ws : List Str} (h : Ahead T l ws)
    (hw : FieldWords ws)
    (hf : ∀ b l', (b = true ↔ GroupAhead l.scanner.inp) → Ahead T l' ws → Sat H Q E (f b l')) :
    Sat H Q E ((peekIsGroup >>= f) l) := by
  refine Sat.bind ((peekIsGroup_sat h.good).also (peekIsGroup_log hw h)) ?_
  rintro b l' ⟨⟨h1, h2⟩, h3⟩
  exact hf b l' h2 (h.back h1 (fun _ => h3))

theorem bare_message {r x : Message} (h1 : r.messageName = x.messageName)
    (h2 : bareAll r.messageBody = bareAll x.messageBody) : bare (.message r) = bare (.message x) := by
  cases r; cases x
  simp only [bare]
  simp only at h1 h2
  simp only [h1, h2]

theorem bare_enum {r x : Enum} (h1 : r.enumName = x.enumName)
    (h2 : bareAll r.enumBody = bareAll x.enumBody) : bare (.enum r) = bare (.enum x) := by
  cases r; cases x
  simp only [bare]
  simp only at h1 h2
  simp only [h1, h2]

theorem bare_extend {r x : Extend} (h1 : r.messageType = x.messageType)
    (h2 : bareAll r.extendBody = bareAll x.extendBody) : bare (.extend r) = bare (.extend x) := by
  cases r; cases x
  simp only [bare]
  simp only at h1 h2
  simp only [h1, h2]

theorem bare_service {r x : Service} (h1 : r.serviceName = x.serviceName)
    (h2 : bareAll r.serviceBody = bareAll x.serviceBody) : bare (.service r) = bare (.service x) := by
  cases r; cases x
  simp only [bare]
  simp only at h1 h2
  simp only [h1, h2]

theorem bare_group {r x : GroupField} (h : r.isRepeated = x.isRepeated ∧ r.isRequired = x.isRequired ∧
    r.isOptional = x.isOptional ∧ r.groupName = x.groupName ∧ r.fieldNumber = x.fieldNumber ∧
    bareAll r.messageBody = bareAll x.messageBody) : bare (.groupField r) = bare (.groupField x) := by
  cases r; cases x
  simp only [bare]
  simp only at h
  obtain ⟨h1, h2, h3, h4, h5, h6⟩ := h
  simp only [h1, h2, h3, h4, h5, h6]

theorem messageStmt_go (hG : G.permissive = cfg.permissive) (hl : G.loose = false) (hj : G.junk = false)
    {d : Nat} {body : P Body} (hbody : BodyGo H cfg G d body)
    {v : Visitee} {ts : List Tok} (hx : Toks G .message v ts) (hv : bare v ≠ .nil) {cs : List Comment} {l0 : Lexer}
    (hs : Shut cfg ts rest) (hdep : ts.length ≤ d) (hfu : ts.length ≤ cfg.fuel)
    (h0 : Ahead T l0 (words ts ++ rest)) (h : Ahead T l (words ts ++ rest)) :
    Sat H (Stmt T v rest) E (messageStmtK calm cfg body cs (nextSt .kw l0).token l) := by
  have kw : ∀ {t : Token} {k : Str} {ws : List Str}, spelling t = some k → words ts = k :: ws →
      (nextSt .kw l0).token = t := fun hk e => Ahead.keyword (by rw [e] at h0; exact h0) hk
  cases hx with
  | comment => simp [bare] at hv
  | empty _ e t ht =>
    rw [show words [t] ++ rest = c!";" :: rest by simp [words, ht]] at h h0
    rw [h0.semi_keyword, messageStmt_default (by simp [switchTokens])]
    unfold fieldStmtK
    refine go_isGroup h (.plain _ (by rintro _ ⟨⟩ _; decide) (.semi _)) (fun b l1 hb k1 => ?_)
    refine sat_neg (by rw [hb]; exact not_groupAhead_semi h) ?_
    refine go_recover (parseField_semi k1) (fun er l' h => (recoverEmpty_go h).mono ?_ (fun _ _ h => h))
    rintro r l' ⟨rfl, h⟩
    exact ⟨rfl, h⟩
  | junk _ _ _ _ hjj => rw [hj] at hjj; simp at hjj
  | option k x ts _ hx =>
    obtain ⟨ws, e⟩ := optionToks_first hx
    rw [kw (t := .kOption) rfl e]
    unfold messageStmtK
    refine Sat.bind (parseOption_go hG hl hx h) ?_
    rintro r l1 ⟨h1, k1⟩
    exact ⟨by simp only [bare]; exact congrArg _ h1, k1⟩
  | message _ x hd bs cl _ h1 hn hb hc _ =>
    rw [kw (t := .kMessage) rfl (by rw [words_append, words_append, h1]; rfl)]
    unfold messageStmtK
    have hlen : bs.length < (hd ++ bs ++ cl).length := by
      have := toks_pos h1
      simp; omega
    refine Sat.bind (messageWith_go hbody hG h1 hn hb hc hs (by omega) (by omega) h) ?_
    rintro r l1 ⟨⟨h1, h2⟩, k1⟩
    exact ⟨bare_message h1 h2, k1⟩
  | group x ls c w hd bs cl hls h1 hn hc' hcap hi hb hc =>
    have hlen : bs.length < (hd ++ bs ++ cl).length := by
      have : 0 < hd.length := by
        have := congrArg List.length h1
        simp [words] at this; omega
      simp; omega
    have e : words (hd ++ bs ++ cl) ++ rest = ls ++ ([c!"group", x.groupName, c!"=", x.fieldNumber, c!"{"] ++
        (words bs ++ words cl ++ rest)) := by
      rw [words_append, words_append, h1]; simp
    have hdef : (nextSt .kw l0).token ∉ switchTokens := by
      rw [e] at h0
      generalize x.isRepeated = a at hls
      generalize x.isRequired = b at hls
      generalize x.isOptional = c at hls
      cases hls with
      | none => exact not_switch h0 group_word (by decide)
      | repeated => exact not_switch h0 (.inl (spelling_word (t := .kRepeated) rfl)) (by decide)
      | required => exact not_switch h0 (.inl (spelling_word (t := .kRequired) rfl)) (by decide)
      | optional => exact not_switch h0 (.inl (spelling_word (t := .kOptional) rfl)) (by decide)
    rw [messageStmt_default hdef]
    unfold fieldStmtK
    refine go_isGroup h (by
      rw [e]
      exact fieldWords_labelled hls (by rintro _ _ ⟨⟩; decide) (.group _ (.name _ _ _ hn hi))) (fun b l1 hb' k1 => ?_)
    have hga : GroupAhead l.scanner.inp := by
      rw [e] at h
      obtain ⟨l', k, hiff⟩ := groupAhead_labelled hls ⟨_, _, rfl, group_word, fun _ => by decide⟩ h
      exact hiff.2 (keywordAt_group hn hc' hcap hi k)
    refine sat_pos (hb'.2 hga) ?_
    refine go_attempt (groupWith_go hbody hG hls h1 hn hc' hcap hi hb hc hs (by omega) (by omega) k1) ?_
    rintro r l1 ⟨h1, k1⟩
    exact ⟨bare_group h1, k1⟩
  | enum _ x hd bs cl _ h1 hn hb hc _ =>
    rw [kw (t := .kEnum) rfl (by rw [words_append, words_append, h1]; rfl)]
    unfold messageStmtK
    refine Sat.bind (parseEnum_go hG hl hj h1 hn hb hc hs h) ?_
    rintro r l1 ⟨⟨h1, h2⟩, k1⟩
    exact ⟨bare_enum h1 h2, k1⟩
  | extend _ x ws hd bs cl _ hm h1 hb hc _ =>
    rw [kw (t := .kExtend) rfl (by rw [words_append, words_append, h1]; rfl)]
    unfold messageStmtK
    refine Sat.bind (parseExtend_go hG hl hj hm h1 hb hc hs h) ?_
    rintro r l1 ⟨⟨h1, h2⟩, k1⟩
    exact ⟨bare_extend h1 h2, k1⟩
  | field k x ts _ hx hw =>
    obtain ⟨w, ws, e, hlead⟩ := fieldToks_first hx
    have hn : w ∉ messageWords := by
      cases ts with
      | nil => simp [words] at e
      | cons t ts =>
        simp only [words_cons, List.cons.injEq] at e
        rw [← e.1]
        exact hw rfl t rfl
    rw [messageStmt_default (not_switch (w := w) (ws := ws ++ rest) (by rw [e] at h0; exact h0) hlead hn)]
    unfold fieldStmtK
    refine go_isGroup h (fieldWords_field hx) (fun b l1 hb k1 => ?_)
    refine sat_neg (by rw [hb]; exact not_groupAhead_field hx h) ?_
    refine go_attempt (parseField_go hG hl hx k1) ?_
    rintro r l1 ⟨h1, k1⟩
    exact ⟨by simp only [bare]; exact congrArg _ h1, k1⟩
  | oneof x ts hx =>
    have e : ∃ ws, words ts = c!"oneof" :: ws := by
      obtain ⟨_, hd, is, cl, h', _, _, rfl, _⟩ := hx
      exact ⟨_, by rw [words_append, words_append, h']; rfl⟩
    obtain ⟨ws, e⟩ := e
    rw [kw (t := .kOneof) rfl e]
    unfold messageStmtK
    refine Sat.bind (parseOneof_go hG hl hx hs h) ?_
    rintro r l1 ⟨h1, k1⟩
    exact ⟨by simp only [bare]; exact congrArg _ h1, k1⟩
  | mapField x ts hx =>
    have e : ∃ ws, words ts = c!"map" :: ws := by
      obtain ⟨_, _, _, _, _, _, _, h, _⟩ := hx
      exact ⟨_, h.trans rfl⟩
    obtain ⟨ws, e⟩ := e
    rw [kw (t := .kMap) rfl e]
    unfold messageStmtK
    refine Sat.bind (parseMapField_go hG hl hx h) ?_
    rintro r l1 ⟨h1, k1⟩
    exact ⟨by simp only [bare]; exact congrArg _ h1, k1⟩
  | reserved k x ts _ hx =>
    have e : ∃ ws, words ts = c!"reserved" :: ws := by
      rcases hx with ⟨_, _, _, h, _⟩ | ⟨_, _, _, _, _, h, _⟩
      · exact ⟨_, h.trans rfl⟩
      · exact ⟨_, h.trans rfl⟩
    obtain ⟨ws, e⟩ := e
    rw [kw (t := .kReserved) rfl e]
    unfold messageStmtK
    refine Sat.bind (parseReserved_go hl hx h) ?_
    rintro r l1 ⟨h1, k1⟩
    exact ⟨by simp only [bare]; exact congrArg _ h1, k1⟩
  | extensions x ts hx =>
    have e : ∃ ws, words ts = c!"extensions" :: ws := by
      obtain ⟨a, rs, ds, b, h', _, _, _, rfl, _⟩ := hx
      exact ⟨_, by rw [List.cons_append, List.cons_append, words_cons, h']⟩
    obtain ⟨ws, e⟩ := e
    rw [kw (t := .kExtensions) rfl e]
    unfold messageStmtK
    refine Sat.bind (parseExtensions_go hx h) ?_
    rintro r l1 ⟨h1, k1⟩
    exact ⟨by simp only [bare]; exact congrArg _ h1, k1⟩

theorem messageLoop_go (hG : G.permissive = cfg.permissive) (hl : G.loose = false) (hj : G.junk = false)
    {d : Nat} {body : P Body} (hbody : BodyGo H cfg G d body)
    {tl : List Str} {il : Option Comment} (hc : tl = [] ∨ (cfg.permissive = true ∧ tl = [c!";"]))
    (hf : cfg.permissive = true → tl = [] → Free [';'] rest) (n : Nat) :
    ∀ {l : Lexer} {acc vs : List Visitee} {ts : List Tok}, Spec.Body G .message vs ts →
      Ahead T l (words ts ++ c!"}" :: (tl ++ rest)) → ts.length < n → ts.length ≤ d → ts.length ≤ cfg.fuel →
    Sat H (Loop T acc vs rest) E (messageLoopK calm cfg body il n acc l) := by
  induction n with
  | zero => intro _ _ _ _ _ _ h; omega
  | succ n ih =>
    intro l acc vs ts hb h hn hd hfu
    unfold messageLoopK
    refine go_comments h (fun cs l1 h => ?_)
    refine sat_peekKeyword h.good ?_
    rcases body_uncons hb (body_noNil hb (by simp)) with ⟨rfl, e⟩ |
      ⟨v, ts1, vs', ts2, g1, g2, g3, rfl, e, _, _, _, g9⟩
    · refine sat_pos (h.next rfl tokIs_rcurly).1 ?_
      refine (closeBody_go hc hf (h.putBack _)).mono ?_ (fun _ _ h => h)
      rintro r l' ⟨h1, h2⟩
      exact ⟨by rw [h1, e, List.append_nil], h2⟩
    · obtain ⟨w, ws, ew, hw⟩ := toks_first hj g1 g2
      refine sat_neg (Ahead.not_rcurly (w := w) (ws := ws ++ (words ts2 ++ c!"}" :: (tl ++ rest))) hw
        (by rw [words_append, ew] at h; simpa using h)) ?_
      rw [words_append, List.append_assoc] at h
      have := toks_pos ew
      simp only [List.length_append] at hn hd hfu
      refine Sat.bind (messageStmt_go hG hl hj hbody g1 g2
        (shut_of_tight hG hj g3 (body_noNil g3 (by simp)) g9 free_rcurly) (by omega) (by omega) h (h.putBack _)) ?_
      rintro r l2 ⟨h1, k2⟩
      refine maybeScan_go (by rw [h1]; exact g2) k2 (fun r' l3 h3 k3 => ?_)
      exact loop_step e g2 (h3.trans h1) (ih g3 k3 (by omega) (by omega) (by omega))

theorem messageBodyWith_go (hG : G.permissive = cfg.permissive) (hl : G.loose = false) (hj : G.junk = false)
    {d : Nat} {body : P Body} (hbody : BodyGo H cfg G d body) :
    BodyGo H cfg G (d + 1) (messageBodyWithK calm cfg body) := by
  intro T E l rest tl vs bs hb hc hf h hd hfu
  unfold messageBodyWithK
  refine go_expect h .next rfl tokIs_lcurly (fun l3 _ _ k3 => ?_)
  refine go_inline k3 (fun c l4 k4 => ?_)
  refine emptyBody_go hj (by simp) hb hc hf k4 (fun l5 k5 => ?_)
  exact messageLoop_go hG hl hj hbody hc hf _ hb k5 hfu (by omega) (by omega)

theorem messageBody_go (hG : G.permissive = cfg.permissive) (hl : G.loose = false) (hj : G.junk = false)
    (d : Nat) : BodyGo H cfg G d (messageBodyK calm cfg d) := by
  induction d with
  | zero => intro E l rest tl vs bs _ _ _ _ h; omega
  | succ d ih => exact messageBodyWith_go hG hl hj ih

theorem parseMessage_go (hG : G.permissive = cfg.permissive) (hl : G.loose = false) (hj : G.junk = false)
    {x : Message} {hd bs cl : List Tok} (h1 : words hd = [c!"message", x.messageName, c!"{"]) (hn : Word x.messageName)
    (hb : Spec.Body G .message x.messageBody bs) (hc : Close G cl) (hs : Shut cfg (hd ++ bs ++ cl) rest)
    (hfu : bs.length < cfg.fuel) (h : Ahead T l (words (hd ++ bs ++ cl) ++ rest)) :
    Sat H (fun r l' => (r.messageName = x.messageName ∧ bareAll r.messageBody = bareAll x.messageBody) ∧
      Ahead T l' rest) E (parseMessageK calm cfg l) :=
  messageWith_go (messageBody_go hG hl hj _) hG h1 hn hb hc hs hfu hfu h

end

end Parser

end Verif
