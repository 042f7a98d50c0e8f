import Verif.Props.Complete
import Verif.Props.Comments
import Verif.Props.Nesting
import Verif.Props.Relational

/-!
# Well-formed files, with groups and empty statements (C27, C28, C30, C51, C65)

For a file of the grammar nothing is missing: whatever groups and empty statements it contains, the tree is
the one that the file denotes, its tokens and comments are those of the text, at their positions, and
the statements are ordered and nested in the text as in the tree.
-/

set_option backward.isDefEq.respectTransparency false
set_option backward.dsimp.instances true

namespace Verif.Props
open Scanner Spec Lexer

/-- C28, C51 and C65 for every file of the grammar, in every layout without a comment on the line of a
semicolon of its own (on such layouts the code panics: `document_panics`). -/
theorem document_read {input : Str} (hn : NulFree input) {options : List ParseOpt} {q : Proto} {ts : List Tok}
    (hq : ProtoToks (grammarOf options) q ts) (hs : .nil ∉ q.protoBody) (hl : Laid (words ts) input)
    (hc : ¬ CommentBehindSemi (grammarOf options) ts input) :
    ∃ p is, Parses input options (.ok p) ∧ bareProto p = fileTree q ∧
      Stream (fileOf options) [] [] is input ∧ ProtoToks (gramOf options) p (toks is) ∧
      ComProto (gramOf options) (configOf options).bodyIncludingComments p is ∧
      Ordered (tops p) ∧ (∀ i ∈ tops p, 0 ≤ i.pos.offset ∧ i.lastPos.offset < bytes input) ∧
      ∀ v i is, In v p.protoBody → metaOf v = some i → is ∈ parts v → Ordered is ∧ ∀ j ∈ is, Within i j := by
  obtain ⟨p, h1, h2⟩ := parse_complete_partial hn hq hs hl hc (Nat.lt_succ_self _)
  have hw : Settled options input p := .inr (.inr (.inl ⟨q, ts, hq, hs, hl⟩))
  have hp : Parses input options (.ok p) := ⟨nofun, _, h1⟩
  obtain ⟨is, h3, h4, h5⟩ := parse_comments hn hp hw
  exact ⟨p, is, hp, h2, h3, h4, h5, nesting_partial hn h1 hw⟩

/-! ## A file with a group and empty statements -/

/-- `message M { ; optional group A = 1 { ; } }` -/
def groupFile : Proto :=
  { syntax_ := none, edition := none
    protoBody := [.message
      { messageName := c!"M"
        messageBody := [
          .emptyStatement {},
          .groupField
            { isRepeated := false, isRequired := false, isOptional := true, groupName := c!"A"
              messageBody := [.emptyStatement {}], fieldNumber := c!"1", info := {} }]
        info := {} }]
    metaFilename := [] }

def groupWords : List Str :=
  [c!"message", c!"M", c!"{", c!";", c!"optional", c!"group", c!"A", c!"=", c!"1", c!"{", c!";", c!"}", c!"}"]

theorem group_file : ProtoToks ⟨true, false, false⟩ groupFile (groupWords.map tokOf) := by
  have hE : Toks ⟨true, false, false⟩ .message (.emptyStatement {}) ([c!";"].map tokOf) := .empty .message {} (tokOf c!";") rfl
  have hG : Toks ⟨true, false, false⟩ .message (.groupField
      { isRepeated := false, isRequired := false, isOptional := true, groupName := c!"A"
        messageBody := [.emptyStatement {}], fieldNumber := c!"1", info := {} })
      ([c!"optional", c!"group", c!"A", c!"=", c!"1", c!"{", c!";", c!"}"].map tokOf) :=
    .group _ [c!"optional"] 'A' [] ([c!"optional", c!"group", c!"A", c!"=", c!"1", c!"{"].map tokOf) ([c!";"].map tokOf)
      ([c!"}"].map tokOf) .optional rfl (word_of (by decide)) rfl (by unfold Capital; decide)
      (.decimal '1' [] (by decide) (by decide) (by unfold Over; decide))
      (.cons .message _ _ _ _ hE (.nil _) (fun _ _ => by unfold Tight; decide)) (.inl rfl)
      (spans_tokOf (ws := [c!"optional", c!"group", c!"A", c!"=", c!"1", c!"{", c!";", c!"}"]) (by simp))
  have hM := Toks.message (G := ⟨true, false, false⟩) .file
      { messageName := c!"M", messageBody := [_, _], info := {} }
      ([c!"message", c!"M", c!"{"].map tokOf) _ ([c!"}"].map tokOf) (.inl rfl) rfl (word_of (by decide))
      (.cons .message _ _ _ _ hE (.cons .message _ _ _ _ hG (.nil _) (fun _ _ => by unfold Tight; decide))
        (fun _ _ => by unfold Tight; decide)) (.inl rfl)
      (spans_tokOf (ws := groupWords) (by simp [groupWords]))
  exact ProtoToks.mk groupFile [] [] [] _ (.inl rfl) .none .none
    (.cons .file _ _ _ _ hM (.nil _) (fun _ _ => by unfold Tight; decide))

/-- `document_read` applies to it, though it contains a group and its messages contain empty statements. -/
example : ∃ p is, Parses (spaced groupWords) [] (.ok p) ∧ bareProto p = fileTree groupFile ∧
    FileHasEmpty p.protoBody ∧ ¬ NoGroup (spaced groupWords) ∧
    Stream [] [] [] is (spaced groupWords) ∧ ProtoToks ⟨true, true, true⟩ p (toks is) ∧ Ordered (tops p) := by
  have key : ∀ w ∈ groupWords, ((w.headD '/').toNat ∉ whiteSpace ∧ w.headD '/' ≠ '/' ∧ w.headD '/' ≠ '0') ∧
    ∀ c ∈ w, c ≠ eof := by decide +kernel
  have hst : ∀ w ∈ groupWords, Standing w := fun w hw => standing_of (key w hw).1
  have hl : Laid (words (groupWords.map tokOf)) (spaced groupWords) := by
    rw [words_tokOf]
    exact laid_spaced hst
  have hn : NulFree (spaced groupWords) := by
    unfold NulFree
    decide +kernel
  obtain ⟨p, is, h1, h2, h3, h4, _, h5, _⟩ := document_read (options := []) hn group_file
    (by simp [groupFile]) hl (by
      rintro ⟨us, c, _, h2, h3⟩
      rw [words_tokOf] at h2
      exact spaced_untrailed hst h2 h3)
  refine ⟨p, is, h1, h2, ?_, ?_, h3, h4, h5⟩
  · have he : accepts (fun p => match p.protoBody with
        | [.message x] => (match x.messageBody with
          | .emptyStatement _ :: _ => true
          | _ => false)
        | _ => false) (parse 60 (spaced groupWords)) = true := by decide +kernel
    obtain ⟨p', k1, k2⟩ := accepts_parses he
    obtain rfl := Outcome.ok.inj (parses_unique h1 k1)
    clear h1 h2 h3 h4 h5 k1
    split at k2
    · next x e =>
      split at k2
      · next a b e' => exact ⟨x, by rw [e]; simp, by rw [e']; exact .here _ _⟩
      · cases k2
    · cases k2
  · unfold NoGroup
    decide +kernel

end Verif.Props
