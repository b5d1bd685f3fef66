import Verif.Model.Data
import Verif.Model.Machine
/-!
# Model of `src/utils/stringutil.cc`, `src/utils/fileutil.cc` (`joinPaths`), `src/utils/bufferutil.cc`

Strings are lists of characters (bytes).
-/
namespace Clip

/-- `std::string::find(pattern)`: the smallest index at which `pattern` occurs (C++ library). -/
def findSub (p : Str) : Str → Option Nat
  | [] => if p.isPrefixOf [] then some 0 else none
  | c :: s => if p.isPrefixOf (c :: s) then some 0 else (findSub p s).map (· + 1)

/-- `std::string::find(pattern, pos)` (C++ library); `none` is `npos`. -/
def findFrom (s p : Str) (pos : Nat) : Option Nat :=
  if pos ≤ s.length then (findSub p (s.drop pos)).map (· + pos) else none

/-- `std::string::replace(pos, n, r)` (C++ library). -/
def strReplace (s : Str) (pos n : Nat) (r : Str) : Str := s.take pos ++ r ++ s.drop (pos + n)

/-- stringutil.cc:146-149, one iteration of the loop of `replaceAll`; state: the string and `cur`. -/
def replaceStep (p r : Str) (st : Str × Nat) : (Str × Nat) ⊕ Str :=
  match findFrom st.1 p st.2 with
  | none => .inr st.1
  | some i => .inl (strReplace st.1 i p.length r, i + r.length)

/-- stringutil.cc:137-150 `StringUtil::replaceAll`: the string afterwards. -/
def ReplaceAllReturns (s p r out : Str) : Prop :=
  if s.length = 0 then out = s else Returns (replaceStep p r) (s, 0) out

/-- `replaceAll` never returns. -/
def ReplaceAllDiverges (s p r : Str) : Prop :=
  if s.length = 0 then False else Diverges (replaceStep p r) (s, 0)

/-- stringutil.cc:159-169, one iteration of the loop of `split`; state: `begin` and the parts so far. -/
def splitStep (s p : Str) (st : Nat × List Str) : (Nat × List Str) ⊕ List Str :=
  match findFrom s p st.1 with
  | none => .inr (st.2 ++ [s.drop st.1])
  | some e => .inl (e + p.length, st.2 ++ [(s.drop st.1).take (e - st.1)])

/-- stringutil.cc:152-172 `StringUtil::split`; the assertion on line 155 makes an empty pattern an abort, so
there is no result then. -/
def SplitReturns (s p : Str) (out : List Str) : Prop :=
  p ≠ [] ∧ Returns (splitStep s p) (0, []) out

/-- stringutil.cc:177-183, the loop of `join` from index `i` on. -/
def joinLoop (list : List Str) (sep : Str) (i : Nat) (out : Str) : Str :=
  match list with
  | [] => out
  | x :: rest => joinLoop rest sep (i + 1) ((if i > 0 then out ++ sep else out) ++ x)

/-- stringutil.cc:174-186 `StringUtil::join`. -/
def joinStr (list : List Str) (sep : Str) : Str := joinLoop list sep 0 []

/-- stringutil.cc:203-212 `StringUtil::beginsWith`. -/
def beginsWith (s pre : Str) : Bool :=
  if s.length < pre.length then false else s.take pre.length == pre

/-- stringutil.cc:226-246 `StringUtil::compare`. -/
def compareStr : Str → Str → Int
  | a :: s, b :: t => if a ≠ b then (if a < b then -1 else 1) else compareStr s t
  | _ :: _, [] => 1
  | [], _ :: _ => -1
  | [], [] => 0

/-- stringutil.cc:113-117 `StringUtil::ltrim`; `front()` of an empty string is undefined. -/
def ltrim : Str → Option Str
  | [] => none
  | c :: s => if c = ' ' then ltrim s else some (c :: s)

/-- The loop `while (pred(str->back())) str->pop_back()` (stringutil.cc:119-135); `back()` of an empty string
is undefined. -/
def stripBack (pred : Char → Bool) (s : Str) : Option Str :=
  match h : s.getLast? with
  | none => none
  | some c => if pred c then stripBack pred s.dropLast else some s
termination_by s.length
decreasing_by
  have : s ≠ [] := by rintro rfl; simp at h
  have : 0 < s.length := List.length_pos_iff.2 this
  simp; omega

/-- stringutil.cc:119-123 `StringUtil::rtrim`. -/
def rtrim (s : Str) : Option Str := stripBack (fun c => c == ' ') s
/-- stringutil.cc:125-129 `StringUtil::stripTrailingSlashes`. -/
def stripTrailingSlashes (s : Str) : Option Str := stripBack (fun c => c == '/') s
/-- stringutil.cc:131-135 `StringUtil::chomp`. -/
def chomp (s : Str) : Option Str := stripBack (fun c => c == '\n' || c == '\r') s

/-- fileutil.cc:109-115 `FileUtil::joinPaths`. -/
def joinPaths (p1 p2 : Str) : Option Str := do
  let a ← stripTrailingSlashes p1
  let b ← stripTrailingSlashes p2
  return a ++ ['/'] ++ b

/-- bufferutil.cc:18-32 `BufferUtil::stripTrailingBytes` (content of the buffer afterwards). -/
def stripTrailingBytes (byte : Char) (s : Str) : Str :=
  match h : s.getLast? with
  | none => s
  | some c => if c = byte then stripTrailingBytes byte s.dropLast else s
termination_by s.length
decreasing_by
  have : s ≠ [] := by rintro rfl; simp at h
  have : 0 < s.length := List.length_pos_iff.2 this
  simp; omega

/-- `isdigit` in the "C" locale. -/
def cIsDigit (c : Char) : Bool := '0' ≤ c && c ≤ '9'

/-- stringutil.cc:304-316 `StringUtil::isDigitString`. -/
def isDigitText (s : Str) : Bool := s.all cIsDigit

/-- stringutil.cc:329-337, first loop of `isNumber`: `none` is `return false`, otherwise the text from the
position of the break (or the end) on. -/
def isNumberInt : Str → Option Str
  | [] => some []
  | c :: s => if c = '.' then some (c :: s) else if cIsDigit c then isNumberInt s else none

/-- stringutil.cc:339-349, the rest of `isNumber`: an optional `.` (or `,`, which the first loop never leaves)
and digits. -/
def isNumberFrac (t : Str) : Bool :=
  (match t with | '.' :: u => u | ',' :: u => u | u => u).all cIsDigit

/-- stringutil.cc:329-349, `isNumber` behind the sign. -/
def isNumberBody (s : Str) : Bool :=
  match isNumberInt s with
  | none => false
  | some t => isNumberFrac t

/-- stringutil.cc:322-350 `StringUtil::isNumber`. -/
def isNumber (s : Str) : Bool :=
  match s with
  | '-' :: t => isNumberBody t
  | t => isNumberBody t

/-- stringutil.cc:92-106 `StringUtil::toString(double)`, the loop on the text printed by `snprintf("%f")`.
(The loop writes the NUL one position too far, inside the 128 byte buffer, and returns `len` bytes.) -/
def stripZeros (buf : Str) : Str :=
  if h : 2 < buf.length then
    if buf[buf.length - 1] = '0' ∧ buf[buf.length - 2] ≠ '.' then stripZeros buf.dropLast else buf
  else buf
termination_by buf.length
decreasing_by simp; omega

/-- stringutil.cc:273-280 `StringUtil::isAlphanumeric(char)`. -/
def isAlphanumeric (c : Char) : Bool :=
  ('0' ≤ c && c ≤ '9') || ('a' ≤ c && c ≤ 'z') || ('A' ≤ c && c ≤ 'Z')

/-- stringutil.cc:292-302 `StringUtil::isShellSafe(char)`. -/
def isShellSafeChar (c : Char) : Bool :=
  ('0' ≤ c && c ≤ '9') || ('a' ≤ c && c ≤ 'z') || ('A' ≤ c && c ≤ 'Z') || c == '_' || c == '-' || c == '.'

/-- stringutil.cc:282-290 `StringUtil::isShellSafe(std::string)`. -/
def isShellSafe (s : Str) : Bool := s.all isShellSafeChar

/-- stringutil.cc:472-482 `StringUtil::stripShell`. -/
def stripShell (s : Str) : Str :=
  s.filter fun c => isAlphanumeric c || c == '_' || c == '-' || c == '.'

/-- stringutil.cc:249-261 `StringUtil::isHexString`. -/
def isHexString (s : Str) : Bool :=
  s.all fun c => ('0' ≤ c && c ≤ '9') || ('a' ≤ c && c ≤ 'f') || ('A' ≤ c && c ≤ 'F')

/-- stringutil.cc:368-376 `StringUtil::find(str, chr)` from position `i`; `none` is `(size_t) -1`. -/
def findCharLoop (chr : Char) : Str → Nat → Option Nat
  | [], _ => none
  | c :: s, i => if c = chr then some i else findCharLoop chr s (i + 1)

def findChar (s : Str) (chr : Char) : Option Nat := findCharLoop chr s 0

/-- stringutil.cc:378-386 `StringUtil::findLast`; the loop with `i = n - 1, ..., 0` (texts below 2^31 bytes). -/
def findLastLoop (s : Str) (chr : Char) : Nat → Option Nat
  | 0 => none
  | n + 1 => if s[n]? = some chr then some n else findLastLoop s chr n

def findLast (s : Str) (chr : Char) : Option Nat := findLastLoop s chr s.length

/-- stringutil.cc:388-390 `StringUtil::includes`. -/
def includesStr (s sub : Str) : Bool := (findFrom s sub 0).isSome

/-- bufferutil.cc:34-60 `BufferUtil::hexPrint`: table look-up. -/
def hexDigit (n : Nat) : Char := "0123456789abcdef".toList.getD n '?'

/-- bufferutil.cc:46-57: the printed form, from index `i` on (`first` is the index printed first). -/
def hexPrintLoop (sep : Bool) : List UInt8 → Bool → Str
  | [], _ => []
  | b :: bs, first =>
    (if sep && !first then [' '] else []) ++ [hexDigit ((b.toNat &&& 0xf0) >>> 4), hexDigit (b.toNat &&& 0x0f)] ++
      hexPrintLoop sep bs false

/-- bufferutil.cc:34-60 `BufferUtil::hexPrint` (buffers below 2^31 bytes). -/
def hexPrint (data : List UInt8) (sep reverse : Bool) : Str :=
  hexPrintLoop sep (if reverse then data.reverse else data) true

end Clip
