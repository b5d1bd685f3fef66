import Verif.Model.Outcome
/-!
# Model of `src/utils/UTF8.cc` and the conversions of `src/utils/stringutil.cc:409-469`

Bytes and code units are natural numbers (bytes `< 256`); the pointer pair `cur`, `end` is the list of the
remaining bytes.  Bytes are read through `const char*` (signed), but always masked with a value `< 128`
before use, so signedness does not matter.
-/
namespace Clip

abbrev Bytes := List Nat

/-- UTF8.cc:19-102 `UTF8::nextCodepoint`: the code point and the remaining bytes. -/
def nextCodepoint : Bytes → Outcome Unit (Nat × Bytes)
  | [] => .ok (0, [])                                                         -- 23-25
  | b :: r =>
    if b < 128 then .ok (b, r)                                                -- 27-29
    else if b &&& 224 = 192 then                                              -- 31-41
      match r with
      | b1 :: r => .ok ((b &&& 31) <<< 6 ||| (b1 &&& 63), r)
      | _ => .thrown
    else if b &&& 240 = 224 then                                              -- 43-54
      match r with
      | b1 :: b2 :: r => .ok ((b &&& 15) <<< 12 ||| (b1 &&& 63) <<< 6 ||| (b2 &&& 63), r)
      | _ => .thrown
    else if b &&& 248 = 240 then                                              -- 56-68
      match r with
      | b1 :: b2 :: b3 :: r =>
        .ok ((b &&& 7) <<< 18 ||| (b1 &&& 63) <<< 12 ||| (b2 &&& 63) <<< 6 ||| (b3 &&& 63), r)
      | _ => .thrown
    else if b &&& 252 = 248 then                                              -- 70-83
      match r with
      | b1 :: b2 :: b3 :: b4 :: r =>
        .ok ((b &&& 3) <<< 14 ||| (b1 &&& 63) <<< 18 ||| (b2 &&& 63) <<< 12 ||| (b3 &&& 63) <<< 6 |||
          (b4 &&& 63), r)
      | _ => .thrown
    else if b &&& 254 = 252 then                                              -- 85-99
      match r with
      | b1 :: b2 :: b3 :: b4 :: b5 :: r =>
        .ok ((b &&& 1) <<< 30 ||| (b1 &&& 63) <<< 24 ||| (b2 &&& 63) <<< 18 ||| (b3 &&& 63) <<< 12 |||
          (b4 &&& 63) <<< 6 ||| (b5 &&& 63), r)
      | _ => .thrown
    else .thrown                                                              -- 101

/-- UTF8.cc:166-209 `UTF8::encodeCodepoint`: the appended bytes. -/
def encodeCodepoint (c : Nat) : Bytes :=
  if c < 128 then [c]
  else if c < 2048 then
    [192 ||| (c >>> 6 &&& 31), 128 ||| (c &&& 63)]
  else if c < 65536 then
    [224 ||| (c >>> 12 &&& 15), 128 ||| (c >>> 6 &&& 63), 128 ||| (c &&& 63)]
  else if c < 2097152 then
    [240 ||| (c >>> 18 &&& 7), 128 ||| (c >>> 12 &&& 63), 128 ||| (c >>> 6 &&& 63), 128 ||| (c &&& 63)]
  else if c < 67108864 then
    [248 ||| (c >>> 24 &&& 3), 128 ||| (c >>> 18 &&& 63), 128 ||| (c >>> 12 &&& 63), 128 ||| (c >>> 6 &&& 63),
      128 ||| (c &&& 63)]
  else
    [252 ||| (c >>> 30 &&& 1), 128 ||| (c >>> 24 &&& 63), 128 ||| (c >>> 18 &&& 63), 128 ||| (c >>> 11 &&& 63),
      128 ||| (c >>> 6 &&& 63), 128 ||| (c &&& 63)]

/-- UTF8.cc:111-161, one round of the loop of `UTF8::isValidUTF8`.  After the last test the loop continues
without advancing `cur`. -/
def isValidStep : Bytes → Bytes ⊕ Bool
  | [] => .inr true                                                           -- 111, 163
  | b :: r =>
    if b < 128 then .inr true                                                 -- 112-115
    else if b &&& 224 = 192 then if r.length < 1 then .inr false else .inl (r.drop 1)
    else if b &&& 240 = 224 then if r.length < 2 then .inr false else .inl (r.drop 2)
    else if b &&& 248 = 240 then if r.length < 3 then .inr false else .inl (r.drop 3)
    else if b &&& 252 = 248 then if r.length < 4 then .inr false else .inl (r.drop 4)
    else if b &&& 254 = 252 then if r.length < 5 then .inr false else .inl (r.drop 5)
    else .inl (b :: r)

theorem nextCodepoint_length {l : Bytes} {c : Nat} {r : Bytes} (h : nextCodepoint l = .ok (c, r)) (hc : c ≠ 0) :
    r.length < l.length := by
  unfold nextCodepoint at h
  split at h
  · simp only [Outcome.ok.injEq, Prod.mk.injEq] at h; exact absurd h.1.symm hc
  · (repeat' split at h) <;>
      simp only [Outcome.ok.injEq, Prod.mk.injEq, reduceCtorEq] at h <;>
      obtain ⟨-, rfl⟩ := h <;> simp <;> omega

/-- stringutil.cc:409-421 `convertUTF8To32` (`w = 2^32`) and 424-436 `convertUTF8To16` (`w = 2^16`: the code
point is truncated when it is assigned to a `char16_t`): reads until a (truncated) zero. -/
def convertFrom8 (w : Nat) (s : Bytes) : Outcome Unit (List Nat) :=
  match h : nextCodepoint s with
  | .ok (c, r) =>
    if hc : c % w = 0 then .ok []
    else
      match convertFrom8 w r with
      | .ok cs => .ok (c % w :: cs)
      | o => o
  | .thrown => .thrown
  | .error e => .error e
  | .undefined => .undefined
termination_by s.length
decreasing_by exact nextCodepoint_length h (by rintro rfl; simp at hc)

def convertUTF8To32 (s : Bytes) : Outcome Unit (List Nat) := convertFrom8 4294967296 s
def convertUTF8To16 (s : Bytes) : Outcome Unit (List Nat) := convertFrom8 65536 s

/-- stringutil.cc:438-447 `convertUTF32To8` and 449-458 `convertUTF16To8`. -/
def convertTo8 (s : List Nat) : Bytes := s.flatMap encodeCodepoint

/-- stringutil.cc:460-469 `countUTF8CodePoints`. -/
def countUTF8CodePoints (s : Bytes) : Outcome Unit Nat :=
  match h : nextCodepoint s with
  | .ok (c, r) =>
    if hc : c = 0 then .ok 0
    else
      match countUTF8CodePoints r with
      | .ok n => .ok (n + 1)
      | o => o
  | .thrown => .thrown
  | .error e => .error e
  | .undefined => .undefined
termination_by s.length
decreasing_by exact nextCodepoint_length h hc

end Clip
