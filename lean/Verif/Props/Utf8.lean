import Verif.Lemmas.Utf8
/-!
# C14-C16, C55: UTF-8 (`src/utils/UTF8.cc`, `src/utils/stringutil.cc`)
-/
namespace Clip
open Utf8Spec

/-- C14: the encoder writes the RFC 3629 bytes of every code point, and decoding them (with any bytes after
them) gives back the code point and consumes exactly these bytes. -/
theorem C14_utf8_roundtrip (c : Nat) (h : c < 0x200000) (rest : Bytes) :
    encodeCodepoint c = encode c ∧ nextCodepoint (encodeCodepoint c ++ rest) = .ok (c, rest) := by
  rw [encode_spec c h]
  exact ⟨rfl, decode_spec c h rest⟩

example : (0x1F600 < 0x200000) ∧ encodeCodepoint 0x1F600 = [0xF0, 0x9F, 0x98, 0x80] := by decide

/-- C14, outside Unicode (code points from 2^21 on, which the functions also claim to handle): the round trip
fails for five-byte and for six-byte sequences. -/
theorem C14_long_forms_fail :
    nextCodepoint (encodeCodepoint 0x1000000) ≠ .ok (0x1000000, []) ∧
    nextCodepoint (encodeCodepoint 0x4001000) ≠ .ok (0x4001000, []) := by decide

/-- C15: text converted to UTF-8 and back is unchanged, for all texts of non-zero code points. -/
theorem C15_utf32_roundtrip (s : List Nat) (h : ∀ c ∈ s, 0 < c ∧ c < 0x200000) :
    convertUTF8To32 (convertTo8 s) = .ok s := by
  unfold convertUTF8To32 convertTo8
  induction s with
  | nil => simpa using convertFrom8_nil _
  | cons c cs ih =>
    have hc := h c (by simp)
    have hd := (C14_utf8_roundtrip c hc.2 (cs.flatMap encodeCodepoint)).2
    have hm : c % 4294967296 = c := Nat.mod_eq_of_lt (by omega)
    rw [convertFrom8, List.flatMap_cons]
    split
    · rename_i c' r he
      rw [hd] at he
      simp only [Outcome.ok.injEq, Prod.mk.injEq] at he
      obtain ⟨rfl, rfl⟩ := he
      rw [dif_neg (by omega), ih fun c hc => h c (by simp [hc]), hm]
    all_goals (rename_i he; rw [hd] at he; simp at he)

/-- C15: the number of code points of a converted text is its length. -/
theorem C15_count (s : List Nat) (h : ∀ c ∈ s, 0 < c ∧ c < 0x200000) :
    countUTF8CodePoints (convertTo8 s) = .ok s.length := by
  unfold convertTo8
  induction s with
  | nil => simpa using count_nil
  | cons c cs ih =>
    have hc := h c (by simp)
    have hd := (C14_utf8_roundtrip c hc.2 (cs.flatMap encodeCodepoint)).2
    rw [countUTF8CodePoints, List.flatMap_cons]
    split
    · rename_i c' r he
      rw [hd] at he
      simp only [Outcome.ok.injEq, Prod.mk.injEq] at he
      obtain ⟨rfl, rfl⟩ := he
      rw [dif_neg (by omega), ih fun c hc => h c (by simp [hc])]
      simp
    all_goals (rename_i he; rw [hd] at he; simp at he)

/-- C15: valid UTF-8 is unchanged by decoding and encoding again. -/
theorem C15_utf8_roundtrip (s : Bytes) (h : ∃ cs : List Nat, (∀ c ∈ cs, IsScalar c ∧ c ≠ 0) ∧ s = cs.flatMap encode) :
    ∃ cs, convertUTF8To32 s = .ok cs ∧ convertTo8 cs = s := by
  obtain ⟨cs, h, rfl⟩ := h
  have h' : ∀ c ∈ cs, 0 < c ∧ c < 0x200000 := fun c hc => by
    obtain ⟨a, b⟩ := h c hc
    rcases a with a | a <;> omega
  have e : cs.flatMap encode = convertTo8 cs := by
    unfold convertTo8
    rw [List.flatMap_def, List.flatMap_def]
    congr 1
    exact List.map_congr_left fun c hc => (encode_spec c (h' c hc).2).symm
  rw [e]
  exact ⟨cs, C15_utf32_roundtrip cs h', rfl⟩

example : ∀ c ∈ [0x41, 0xE9, 0x20AC, 0x1F600], 0 < c ∧ c < 0x200000 := by decide

/-- C55: text of the basic multilingual plane survives UTF-8 → UTF-16 conversion. -/
theorem C55_utf16_bmp_partial (s : List Nat) (h : ∀ c ∈ s, 0 < c ∧ c < 0x10000) :
    convertUTF8To16 (convertTo8 s) = .ok s := by
  unfold convertUTF8To16 convertTo8
  induction s with
  | nil => simpa using convertFrom8_nil _
  | cons c cs ih =>
    have hc := h c (by simp)
    have hd := (C14_utf8_roundtrip c (by omega) (cs.flatMap encodeCodepoint)).2
    have hm : c % 65536 = c := Nat.mod_eq_of_lt (by omega)
    rw [convertFrom8, List.flatMap_cons]
    split
    · rename_i c' r he
      rw [hd] at he
      simp only [Outcome.ok.injEq, Prod.mk.injEq] at he
      obtain ⟨rfl, rfl⟩ := he
      rw [dif_neg (by omega), ih fun c hc => h c (by simp [hc]), hm]
    all_goals (rename_i he; rw [hd] at he; simp at he)

/-- C55 (violated by the code): a character outside the basic multilingual plane is replaced by an unrelated
code unit (its low 16 bits), and the text ends at characters whose low 16 bits are zero. -/
theorem C55_utf16_truncates (c : Nat) (h : 0x10000 ≤ c ∧ c < 0x110000) (rest : Bytes) :
    (c % 0x10000 = 0 → convertUTF8To16 (encodeCodepoint c ++ rest) = .ok []) ∧
    (∀ cs, c % 0x10000 ≠ 0 → convertUTF8To16 rest = .ok cs →
      convertUTF8To16 (encodeCodepoint c ++ rest) = .ok (c % 0x10000 :: cs)) := by
  have hd := (C14_utf8_roundtrip c (by omega) rest).2
  unfold convertUTF8To16
  constructor
  · intro hz
    rw [convertFrom8]
    split
    · rename_i c' r he
      rw [hd] at he
      simp only [Outcome.ok.injEq, Prod.mk.injEq] at he
      obtain ⟨rfl, rfl⟩ := he
      rw [dif_pos hz]
    all_goals (rename_i he; rw [hd] at he; simp at he)
  · intro cs hz hr
    rw [convertFrom8]
    split
    · rename_i c' r he
      rw [hd] at he
      simp only [Outcome.ok.injEq, Prod.mk.injEq] at he
      obtain ⟨rfl, rfl⟩ := he
      rw [dif_neg hz, hr]
    all_goals (rename_i he; rw [hd] at he; simp at he)

/-- C16, the half that holds: well-formed text is accepted (and the check terminates on it). -/
theorem C16_accepts_wellformed_partial (s : Bytes) (h : WellFormed s) : Returns isValidStep s true := by
  obtain ⟨cs, hs, rfl⟩ := h
  induction cs with
  | nil => exact Returns.of_done rfl
  | cons c cs ih =>
    have hc : c < 2097152 := by rcases hs c (by simp) with h | h <;> omega
    rw [List.flatMap_cons]
    rcases isValidStep_encode c hc (cs.flatMap encode) with h | h
    · exact (Returns.of_step h).2 (ih fun c hc => hs c (by simp [hc]))
    · exact Returns.of_done h

example : WellFormed [0xC3, 0xA9, 0x41] := ⟨[0xE9, 0x41], by simp [IsScalar], by decide⟩

/-- C16 (violated by the code): any bytes whatsoever after an ASCII character are declared valid. -/
theorem C16_ascii_first_accepted (b : Nat) (hb : b < 128) (garbage : Bytes) :
    Returns isValidStep (b :: garbage) true :=
  Returns.of_done (by simp [isValidStep, hb])

/-- C16 (violated by the code): a text that is not well-formed, yet is declared valid. -/
theorem C16_accepts_malformed : ¬ WellFormed [0x41, 0xFF] ∧ Returns isValidStep [0x41, 0xFF] true := by
  refine ⟨?_, C16_ascii_first_accepted 0x41 (by decide) _⟩
  rintro ⟨cs, hs, h⟩
  have : ∀ c, IsScalar c → ∀ b ∈ encode c, b < 0xF8 := by
    intro c hc b hb
    have hc : c < 0x110000 := by rcases hc with h | h <;> omega
    unfold encode at hb
    (repeat' split at hb) <;> simp at hb <;> omega
  have h2 : (0xFF : Nat) ∈ cs.flatMap encode := by rw [← h]; simp
  obtain ⟨c, hc, hb⟩ := List.mem_flatMap.1 h2
  have := this c (hs c hc) _ hb
  omega

set_option maxRecDepth 8192 in
/-- C16 (violated by the code): the check never ends on a text that starts with a continuation byte or with
0xFE or 0xFF. -/
theorem C16_diverges (b : Nat) (hb : 0x80 ≤ b ∧ b < 0xC0 ∨ b = 0xFE ∨ b = 0xFF) (rest : Bytes) :
    Diverges isValidStep (b :: rest) := by
  have key : ∀ b, b < 256 → (0x80 ≤ b ∧ b < 0xC0 ∨ b = 0xFE ∨ b = 0xFF) → ¬ b < 128 ∧ b &&& 224 ≠ 192 ∧
      b &&& 240 ≠ 224 ∧ b &&& 248 ≠ 240 ∧ b &&& 252 ≠ 248 ∧ b &&& 254 ≠ 252 := by decide
  obtain ⟨h1, h2, h3, h4, h5, h6⟩ := key b (by omega) hb
  refine Diverges.of_invariant (fun s => s = b :: rest) ?_ rfl
  rintro s rfl
  exact ⟨_, by simp [isValidStep, h1, h2, h3, h4, h5, h6], rfl⟩

/-- Specification: the number of bytes that a lead byte announces. -/
def announced (b : Nat) : Nat :=
  if b < 0xE0 then 2 else if b < 0xF0 then 3 else if b < 0xF8 then 4 else if b < 0xFC then 5 else 6

set_option maxRecDepth 8192 in
set_option synthInstance.maxSize 1000 in
set_option synthInstance.maxHeartbeats 200000 in
theorem isValidStep_lead (b : Nat) (hb : 0xC0 ≤ b ∧ b < 0xFE) (rest : Bytes) :
    isValidStep (b :: rest) = if rest.length + 1 < announced b then .inr false else .inl (rest.drop (announced b - 1)) := by
  have key : ∀ b : Nat, b < 256 → 0xC0 ≤ b → b < 0xFE → ¬ b < 128 ∧
      ((b &&& 224 = 192 ∧ announced b = 2) ∨ (b &&& 224 ≠ 192 ∧ b &&& 240 = 224 ∧ announced b = 3) ∨
       (b &&& 224 ≠ 192 ∧ b &&& 240 ≠ 224 ∧ b &&& 248 = 240 ∧ announced b = 4) ∨
       (b &&& 224 ≠ 192 ∧ b &&& 240 ≠ 224 ∧ b &&& 248 ≠ 240 ∧ b &&& 252 = 248 ∧ announced b = 5) ∨
       (b &&& 224 ≠ 192 ∧ b &&& 240 ≠ 224 ∧ b &&& 248 ≠ 240 ∧ b &&& 252 ≠ 248 ∧ b &&& 254 = 252 ∧ announced b = 6)) := by
    decide +kernel
  obtain ⟨h0, h⟩ := key b (by omega) hb.1 hb.2
  rcases h with ⟨h1, h⟩ | ⟨h1, h2, h⟩ | ⟨h1, h2, h3, h⟩ | ⟨h1, h2, h3, h4, h⟩ | ⟨h1, h2, h3, h4, h5, h⟩ <;>
    simp only [isValidStep, *, if_false, if_true] <;> split <;> split <;> first | rfl | omega

/-- C16: a sequence that is cut off at the end of the text is refused, whatever well-formed non-ASCII text comes
before it. -/
theorem C16_truncated_refused (cs : List Nat) (hs : ∀ c ∈ cs, IsScalar c ∧ 0x80 ≤ c) (b : Nat)
    (hb : 0xC0 ≤ b ∧ b < 0xFE) (rest : Bytes) (ht : rest.length + 1 < announced b) :
    Returns isValidStep (cs.flatMap encode ++ b :: rest) false := by
  induction cs with
  | nil => exact Returns.of_done (by simp only [List.flatMap_nil, List.nil_append]; rw [isValidStep_lead b hb, if_pos ht])
  | cons c cs ih =>
    have hc : c < 2097152 := by rcases (hs c (by simp)).1 with h | h <;> omega
    have h80 := (hs c (by simp)).2
    rw [List.flatMap_cons, List.append_assoc]
    have : isValidStep (encode c ++ (cs.flatMap encode ++ b :: rest)) = .inl (cs.flatMap encode ++ b :: rest) := by
      generalize cs.flatMap encode ++ b :: rest = r
      unfold encode
      rw [if_neg (by omega)]
      split
      · rw [List.cons_append, isValidStep_lead _ (by omega)]
        have : announced (0xC0 + c / 64) = 2 := by unfold announced; rw [if_pos (by omega)]
        simp [this]
      · split
        · rw [List.cons_append, isValidStep_lead _ (by omega)]
          have : announced (0xE0 + c / 4096) = 3 := by unfold announced; rw [if_neg (by omega), if_pos (by omega)]
          simp [this]
        · rw [List.cons_append, isValidStep_lead _ (by omega)]
          have : announced (0xF0 + c / 262144) = 4 := by
            unfold announced; rw [if_neg (by omega), if_neg (by omega), if_pos (by omega)]
          simp [this]
    exact (Returns.of_step this).2 (ih fun c hc => hs c (by simp [hc]))

example : ∀ c ∈ [0xE9], IsScalar c ∧ 0x80 ≤ c := by simp [IsScalar]
example : [0xE2, 0x82].tail.length + 1 < announced 0xE2 := by decide

/-- C16 (violated by the code): the bytes of a sequence other than the first are not looked at: with enough of them
the answer is that for the rest of the text. -/
theorem C16_continuation_unchecked (b : Nat) (hb : 0xC0 ≤ b ∧ b < 0xFE) (body rest : Bytes)
    (hl : body.length + 1 = announced b) (r : Bool) :
    Returns isValidStep (b :: (body ++ rest)) r ↔ Returns isValidStep rest r := by
  apply Returns.of_step
  rw [isValidStep_lead b hb, if_neg (by simp; omega), ← hl]
  simp

end Clip
