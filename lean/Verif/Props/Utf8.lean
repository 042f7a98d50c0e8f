import Verif.Model.Utf8
import Verif.Spec.Utf8
import Verif.Props.Comments

/-!
# Bytes and runes (C46)
-/

set_option backward.isDefEq.respectTransparency false
set_option backward.dsimp.instances true

namespace Verif.Props
open Spec Utf8

theorem char_valid (c : Char) : c.toNat < 0xD800 ∨ (0xDFFF < c.toNat ∧ c.toNat < 0x110000) := c.valid

theorem decode_one (c : Char) (rest : List Nat) :
    ∃ b bs, encodeRune c = b :: bs ∧ decodeRune b (bs ++ rest) = (c, rest) := by
  have hv := char_valid c
  have e : Char.ofNat c.toNat = c := Char.ofNat_toNat c
  generalize hn : c.toNat = n at hv e
  subst e
  unfold encodeRune
  rw [hn]
  simp only
  split
  · refine ⟨_, _, rfl, ?_⟩
    have : lengthOf n = 1 := by unfold lengthOf; split <;> first | rfl | omega
    unfold decodeRune; simp [this]
  split
  · refine ⟨_, _, rfl, ?_⟩
    have : lengthOf (0xC0 + n / 0x40) = 2 := by
      unfold lengthOf; repeat' split
      all_goals first | rfl | omega
    have ha : allows (0xC0 + n / 0x40) (0x80 + n % 0x40) = true := by
      unfold allows isCont
      repeat' split
      all_goals (simp only [decide_eq_true_eq]; omega)
    unfold decodeRune
    simp only [this, ha, List.cons_append, List.nil_append, if_true]
    congr 2
    omega
  split
  · refine ⟨_, _, rfl, ?_⟩
    have : lengthOf (0xE0 + n / 0x1000) = 3 := by
      unfold lengthOf; repeat' split
      all_goals first | rfl | omega
    have ha : allows (0xE0 + n / 0x1000) (0x80 + n / 0x40 % 0x40) = true := by
      unfold allows isCont
      repeat' split
      all_goals (simp only [decide_eq_true_eq]; omega)
    have hb : isCont (0x80 + n % 0x40) = true := by unfold isCont; simp only [decide_eq_true_eq]; omega
    unfold decodeRune
    simp only [this, ha, hb, List.cons_append, List.nil_append, and_self, if_true]
    congr 2
    omega
  · refine ⟨_, _, rfl, ?_⟩
    have : lengthOf (0xF0 + n / 0x40000) = 4 := by
      unfold lengthOf; repeat' split
      all_goals first | rfl | omega
    have ha : allows (0xF0 + n / 0x40000) (0x80 + n / 0x1000 % 0x40) = true := by
      unfold allows isCont
      repeat' split
      all_goals (simp only [decide_eq_true_eq]; omega)
    have hb : isCont (0x80 + n / 0x40 % 0x40) = true := by unfold isCont; simp only [decide_eq_true_eq]; omega
    have hc : isCont (0x80 + n % 0x40) = true := by unfold isCont; simp only [decide_eq_true_eq]; omega
    unfold decodeRune
    simp only [this, ha, hb, hc, List.cons_append, List.nil_append, and_self, if_true]
    congr 2
    omega

/-- C46: the reader delivers the runes that were encoded. -/
theorem decode_append (t : Str) (rest : List Nat) : decode (encode t ++ rest) = t ++ decode rest := by
  induction t with
  | nil => rfl
  | cons c t ih =>
    obtain ⟨b, bs, h1, h2⟩ := decode_one c (encode t ++ rest)
    have : encode (c :: t) ++ rest = b :: (bs ++ (encode t ++ rest)) := by simp [encode, h1]
    rw [this, decode, h2, ih]
    rfl

theorem decode_encode (t : Str) : decode (encode t) = t := by
  have := decode_append t []
  simpa [decode] using this

theorem encodeRune_length (c : Char) : (encodeRune c).length = utf8Len c := by
  unfold encodeRune utf8Len
  simp only
  repeat' split
  all_goals first | rfl | omega

/-- C46: the offset of a position of an encoded text is the index of its byte. -/
theorem offset_is_index (file pre : Str) : (posAt file pre).offset = ((encode pre).length : Int) := by
  show ((bytes pre : Nat) : Int) = _
  congr 1
  unfold bytes encode
  induction pre with
  | nil => rfl
  | cons c pre ih =>
    rw [List.map_cons, List.sum_cons, List.flatMap_cons, List.length_append, encodeRune_length, ih]

theorem encode_append (a b : Str) : encode (a ++ b) = encode a ++ encode b := by simp [encode]

/-! ## Invalid bytes -/

theorem ofNat_toNat {n : Nat} (h : n < 0xD800 ∨ (0xDFFF < n ∧ n < 0x110000)) : (Char.ofNat n).toNat = n := by
  have hv : n.isValidChar := h
  unfold Char.ofNat
  rw [dif_pos hv]
  rfl

/-- A byte is decoded as the first of a sequence, or as an error of its own. -/
theorem decodeRune_cases (b0 : Nat) (bs : List Nat) :
    (b0 :: bs = encodeRune (decodeRune b0 bs).1 ++ (decodeRune b0 bs).2) ∨
    decodeRune b0 bs = (runeError, bs) := by
  unfold decodeRune
  split
  · rename_i h
    refine .inl ?_
    have : b0 < 0x80 := by
      unfold lengthOf at h
      repeat' split at h
      all_goals first | omega | assumption
    unfold encodeRune
    rw [ofNat_toNat (by omega)]
    simp [this]
  · rename_i b1 r h
    split
    · rename_i ha
      refine .inl ?_
      have : 0xC2 ≤ b0 ∧ b0 < 0xE0 := by
        unfold lengthOf at h
        repeat' split at h
        all_goals omega
      have hb : 0x80 ≤ b1 ∧ b1 ≤ 0xBF := by
        unfold allows isCont at ha
        repeat' split at ha
        all_goals (simp only [decide_eq_true_eq] at ha; omega)
      unfold encodeRune
      rw [ofNat_toNat (by omega)]
      simp only
      rw [if_neg (by omega), if_pos (by omega)]
      simp only [List.cons_append, List.nil_append, List.cons.injEq, and_true]
      omega
    · exact .inr rfl
  · rename_i b1 b2 r h
    split
    · rename_i ha
      refine .inl ?_
      have : 0xE0 ≤ b0 ∧ b0 < 0xF0 := by
        unfold lengthOf at h
        repeat' split at h
        all_goals omega
      have hb : 0x80 ≤ b1 ∧ b1 ≤ 0xBF ∧ (b0 = 0xE0 → 0xA0 ≤ b1) ∧ (b0 = 0xED → b1 ≤ 0x9F) := by
        have ha := ha.1
        unfold allows isCont at ha
        repeat' split at ha
        all_goals (simp only [decide_eq_true_eq] at ha; omega)
      have hc : 0x80 ≤ b2 ∧ b2 ≤ 0xBF := by
        have ha := ha.2
        unfold isCont at ha
        simpa using ha
      unfold encodeRune
      rw [ofNat_toNat (by omega)]
      simp only
      rw [if_neg (by omega), if_neg (by omega), if_pos (by omega)]
      simp only [List.cons_append, List.nil_append, List.cons.injEq, and_true]
      omega
    · exact .inr rfl
  · rename_i b1 b2 b3 r h
    split
    · rename_i ha
      refine .inl ?_
      have : 0xF0 ≤ b0 ∧ b0 < 0xF5 := by
        unfold lengthOf at h
        repeat' split at h
        all_goals omega
      have hb : 0x80 ≤ b1 ∧ b1 ≤ 0xBF ∧ (b0 = 0xF0 → 0x90 ≤ b1) ∧ (b0 = 0xF4 → b1 ≤ 0x8F) := by
        have ha := ha.1
        unfold allows isCont at ha
        repeat' split at ha
        all_goals (simp only [decide_eq_true_eq] at ha; omega)
      have hc : 0x80 ≤ b2 ∧ b2 ≤ 0xBF := by
        have ha := ha.2.1
        unfold isCont at ha
        simpa using ha
      have hd : 0x80 ≤ b3 ∧ b3 ≤ 0xBF := by
        have ha := ha.2.2
        unfold isCont at ha
        simpa using ha
      unfold encodeRune
      rw [ofNat_toNat (by omega)]
      simp only
      rw [if_neg (by omega), if_neg (by omega), if_neg (by omega)]
      simp only [List.cons_append, List.nil_append, List.cons.injEq, and_true]
      omega
    · exact .inr rfl
  · exact .inr rfl

/-- `Decodes bs t bad`: the bytes are the encoded runes `t`, in which `bad` bytes stand for the
replacement character. -/
inductive Decodes : List Nat → Str → Nat → Prop
  | nil : Decodes [] [] 0
  | rune (c : Char) (bs : List Nat) (t : Str) (bad : Nat) : Decodes bs t bad →
      Decodes (encodeRune c ++ bs) (c :: t) bad
  | byte (b : Nat) (bs : List Nat) (t : Str) (bad : Nat) : Decodes bs t bad →
      Decodes (b :: bs) (Char.ofNat 0xFFFD :: t) (bad + 1)

/-- C46: every byte is delivered, as part of a rune or as a replacement character. -/
theorem decode_total (bs : List Nat) : ∃ bad, Decodes bs (decode bs) bad := by
  generalize hn : bs.length = n
  induction n using Nat.strongRecOn generalizing bs with
  | _ n ih =>
    cases bs with
    | nil => exact ⟨0, by rw [decode]; exact .nil⟩
    | cons b bs =>
      have hl := decodeRune_length b bs
      obtain ⟨bad, h⟩ := ih _ (by rw [← hn]; simp; omega) (decodeRune b bs).2 rfl
      rw [decode]
      rcases decodeRune_cases b bs with h1 | h1
      · exact ⟨bad, by conv => arg 1; rw [h1]
                       exact .rune _ _ _ _ h⟩
      · rw [h1] at h ⊢
        exact ⟨bad + 1, .byte _ _ _ _ h⟩

/-- C46: each invalid byte counts three in the offset, instead of one. -/
theorem decodes_offset {bs : List Nat} {t : Str} {bad : Nat} (h : Decodes bs t bad) (file : Str) :
    (posAt file t).offset = bs.length + 2 * bad := by
  rw [offset_is_index]
  induction h with
  | nil => rfl
  | rune c bs t bad _ ih =>
    have : encode (c :: t) = encodeRune c ++ encode t := by simp [encode]
    rw [this]
    simp only [List.length_append, Int.natCast_add]
    omega
  | byte b bs t bad _ ih =>
    have : encode (Char.ofNat 0xFFFD :: t) = [0xEF, 0xBF, 0xBD] ++ encode t := by
      show encodeRune _ ++ _ = _
      rw [show encodeRune (Char.ofNat 0xFFFD) = [0xEF, 0xBF, 0xBD] by decide]
      rfl
    rw [this]
    simp only [List.length_append, Int.natCast_add, List.length_cons, List.length_nil]
    omega

theorem decodes_valid {bs : List Nat} {t : Str} (h : Decodes bs t 0) : bs = encode t := by
  generalize hb : 0 = bad at h
  induction h with
  | nil => rfl
  | rune c bs t bad _ ih => rw [ih hb]; simp [encode]
  | byte => omega

/-! ## The parser on bytes -/

/-- C46: on the UTF-8 bytes of a text `Parse` does what the other theorems say about the text. -/
theorem parseBytes_encode (fuel : Nat) (input : Str) (options : List ParseOpt) :
    parseBytes fuel (encode input) options = parse fuel input options := by
  unfold parseBytes; rw [decode_encode]

theorem layout_mem {f before after : Str} {ts : List Tok} {c : Str} {t : Tok} (h : Layout f before after ts c)
    (ht : t ∈ ts) : ∃ pre us, c = pre ++ (t.text ++ us) ∧ t.pos = posAt f (before ++ pre) := by
  induction h with
  | nil => simp at ht
  | cons g cs w ts c _ _ _ _ _ ih =>
    rcases List.mem_cons.1 ht with rfl | ht
    · exact ⟨g, c, rfl, rfl⟩
    · obtain ⟨pre, us, h1, h2⟩ := ih ht
      exact ⟨g ++ w ++ pre, us, by rw [h1]; simp, by rw [h2]; simp⟩

/-- C46: the `Meta.Pos.Offset` of every statement is the index of its first byte: the bytes from there
on are those of the rest of the text, which starts with the first token of the statement. -/
theorem statement_offset_partial {input : Str} (hn : NulFree input) {options : List ParseOpt} {fuel : Nat}
    {p : Proto} (h : parseBytes fuel (encode input) options = .ok p)
    (hc : Settled options input p) {v : Visitee} {i : Meta} (hv : In v p.protoBody)
    (hi : metaOf v = some i) :
    ∃ pre t us k, input = pre ++ (t.text ++ us) ∧ i.pos = posAt (fileOf options) pre ∧
      (∃ ts, Toks (gramOf options) k v (t :: ts)) ∧
      (encode input).drop i.pos.offset.toNat = encode (t.text ++ us) := by
  rw [parseBytes_encode] at h
  obtain ⟨ts, h1, h2⟩ := meta_delimits_partial hn h hc
  obtain ⟨a, us, b, k, rfl, h3, h4⟩ := h2 v i hv hi
  obtain ⟨⟨t, ts, rfl, h5⟩, _⟩ := h4
  obtain ⟨pre, rest, h6, h7⟩ := layout_mem (t := t) h1 (by simp)
  rw [List.nil_append, h5] at h7
  refine ⟨pre, t, rest, k, h6, h7, ⟨ts, h3⟩, ?_⟩
  rw [h7, offset_is_index, h6, encode_append]
  simp

/-- A text with runes of one to four bytes. -/
example : encode c!"aé€😀" = [0x61, 0xC3, 0xA9, 0xE2, 0x82, 0xAC, 0xF0, 0x9F, 0x98, 0x80] ∧
    decode [0x61, 0xC3, 0xA9, 0xE2, 0x82, 0xAC, 0xF0, 0x9F, 0x98, 0x80] = c!"aé€😀" := by
  refine ⟨by decide, ?_⟩
  exact (show [0x61, 0xC3, 0xA9, 0xE2, 0x82, 0xAC, 0xF0, 0x9F, 0x98, 0x80] = encode c!"aé€😀" by decide) ▸
    decode_encode _

/-- The offset of the first statement is 7 (and not 5, the index of its byte). -/
def offsetCheck (p : Proto) : Bool :=
  match p.protoBody with
  | [.message x] => decide (x.info.pos.offset = 7)
  | _ => false

/-- C46 is violated by invalid bytes: in `/*\xFF*/message M {}` the message starts at byte 5. -/
theorem offset_violation :
    accepts offsetCheck (parseBytes 50 ([0x2F, 0x2A, 0xFF, 0x2A, 0x2F] ++ encode c!"message M {}")) = true := by
  have h : decode ([0x2F, 0x2A, 0xFF, 0x2A, 0x2F] ++ encode c!"message M {}") =
      c!"/*" ++ [Char.ofNat 0xFFFD] ++ c!"*/message M {}" := by
    have e : [0x2F, 0x2A, 0xFF, 0x2A, 0x2F] ++ encode c!"message M {}" =
        encode c!"/*" ++ (0xFF :: encode c!"*/message M {}") := by decide
    rw [e, decode_append, decode, show decodeRune 0xFF (encode c!"*/message M {}") =
      (runeError, encode c!"*/message M {}") by decide, decode_encode]
    rfl
  unfold parseBytes
  rw [h]
  decide +kernel

end Verif.Props
