import Verif.Model.Random
import Verif.Props.StringUtil
import Verif.Props.Time
import Mathlib.Tactic.Linarith
import Mathlib.Tactic.NormNum
/-! # C124, C125: random texts, clocks -/
set_option linter.unusedSimpArgs false
namespace Clip
open TextSpec

/-! ## C124 -/

/-- A word is the number its bytes are the base 256 digits of, lowest first. -/
def bytesValue : List UInt8 → Nat
  | [] => 0
  | b :: bs => b.toNat + 256 * bytesValue bs

theorem wordBytes_value (w : UInt64) : bytesValue (wordBytes w) = w.toNat := by
  have hw := w.toNat_lt
  simp only [wordBytes, List.range, List.range.loop, List.map_cons, List.map_nil, bytesValue, UInt8.toNat_ofNat']
  omega

/-- C124: the text of `hex64`, `hex128`, `hex256` and `hex512` (`n` = 1, 2, 4, 8 words) is the words the generator produced,
byte by byte: 16 digits for every word, and reading the digits gives the words back. -/
theorem C124_hex (n : Nat) (ws rest : List UInt64) (s : Str) (h : randomHex n ws = some (s, rest)) :
    ∃ vs, ws = vs ++ rest ∧ vs.length = n ∧ (∀ w ∈ vs, w ≠ 0) ∧ s.length = 16 * n ∧ (∀ c ∈ s, (hexVal c).isSome) ∧
      ∃ blocks : List (List UInt8), readHex s = some blocks.flatten ∧ blocks.map bytesValue = vs.map UInt64.toNat ∧
        ∀ b ∈ blocks, b.length = 8 := by
  have hlen : ∀ (l : List UInt8) (first : Bool), (hexPrintLoop false l first).length = 2 * l.length := by
    intro l
    induction l with
    | nil => intro first; rfl
    | cons b l ih => intro first; simp [hexPrintLoop, ih]; omega
  have hdig : ∀ (l : List UInt8) (first : Bool), ∀ c ∈ hexPrintLoop false l first, (hexVal c).isSome := by
    intro l
    induction l with
    | nil => intro first c hc; simp [hexPrintLoop] at hc
    | cons b l ih =>
      intro first c hc
      have d : ∀ n < 16, (hexVal (hexDigit n)).isSome := by decide
      have e : ∀ b : UInt8, (b.toNat &&& 0xf0) >>> 4 < 16 ∧ b.toNat &&& 0x0f < 16 := by
        intro b
        have hb := b.toNat_lt
        have h1 : b.toNat &&& 0xf0 ≤ b.toNat := Nat.and_le_left
        have h2 : b.toNat &&& 0x0f ≤ 0x0f := Nat.and_le_right
        rw [Nat.shiftRight_eq_div_pow]
        omega
      simp only [hexPrintLoop, Bool.false_and, Bool.false_eq_true, if_false, List.nil_append, List.cons_append,
        List.mem_cons] at hc
      rcases hc with rfl | rfl | hc
      · exact d _ (e b).1
      · exact d _ (e b).2
      · exact ih _ _ hc
  have hwords : ∀ (n : Nat) (ws vs rest : List UInt64), randomWords n ws = some (vs, rest) →
      ws = vs ++ rest ∧ vs.length = n ∧ ∀ w ∈ vs, w ≠ 0 := by
    intro n
    induction n with
    | zero => intro ws vs rest h; simp only [randomWords, Option.some.injEq, Prod.mk.injEq] at h; simp [← h.1, h.2]
    | succ n ih =>
      intro ws vs rest h
      simp only [randomWords] at h
      cases ws with
      | nil => simp [random64] at h
      | cons w ws =>
        simp only [random64] at h
        by_cases hw : w > 0
        · simp only [hw, if_true] at h
          split at h
          · next vs' ws' h' =>
            simp only [Option.some.injEq, Prod.mk.injEq] at h
            obtain ⟨h1, h2, h3⟩ := ih _ _ _ h'
            rw [← h.1, ← h.2, h1]
            refine ⟨rfl, by simp [h2], ?_⟩
            intro x hx
            rcases List.mem_cons.1 hx with rfl | hx
            · rintro rfl; exact absurd hw (by decide)
            · exact h3 x hx
          · simp at h
        · simp [hw] at h
  unfold randomHex at h
  split at h
  · next vs ws' h' =>
    simp only [Option.some.injEq, Prod.mk.injEq] at h
    obtain ⟨rfl, rfl⟩ := h
    obtain ⟨h1, h2, h3⟩ := hwords _ _ _ _ h'
    have hbytes : ∀ vs : List UInt64, (vs.flatMap wordBytes).length = 8 * vs.length := by
      intro vs
      induction vs with
      | nil => rfl
      | cons w vs ih => simp only [List.flatMap_cons, List.length_append, ih, List.length_cons, wordBytes, List.length_map,
          List.length_range]; omega
    refine ⟨vs, h1, h2, h3, ?_, hdig _ _, vs.map wordBytes, ?_, ?_, ?_⟩
    · rw [hexPrint, hlen]; simp only [Bool.false_eq_true, if_false]; rw [hbytes, h2]; omega
    · rw [(C61_hex_print _ false).1, List.flatMap_def]
    · rw [List.map_map]
      exact List.map_congr_left fun w _ => wordBytes_value w
    · intro b hb
      obtain ⟨w, _, rfl⟩ := List.mem_map.1 hb
      simp [wordBytes]
  · simp at h

theorem map_inj {α β : Type} {f : α → β} (h : ∀ a b, f a = f b → a = b) : ∀ {l l' : List α}, l.map f = l'.map f → l = l'
  | [], [], _ => rfl
  | [], _ :: _, e => by simp at e
  | _ :: _, [], e => by simp at e
  | a :: l, b :: l', e => by
    simp only [List.map_cons, List.cons.injEq] at e
    rw [h a b e.1, map_inj h e.2]

/-- C124: different words give different texts. -/
theorem C124_distinct (n : Nat) (ws ws' rest rest' : List UInt64) (s : Str) (h : randomHex n ws = some (s, rest))
    (h' : randomHex n ws' = some (s, rest')) : ws.take n = ws'.take n := by
  obtain ⟨vs, e, hl, _, _, _, bs, h1, h2, h3⟩ := C124_hex n ws rest s h
  obtain ⟨vs', e', hl', _, _, _, bs', h1', h2', h3'⟩ := C124_hex n ws' rest' s h'
  have hb : ∀ (bs bs' : List (List UInt8)), (∀ b ∈ bs, b.length = 8) → (∀ b ∈ bs', b.length = 8) → bs.flatten = bs'.flatten →
      bs = bs' := by
    intro bs
    induction bs with
    | nil =>
      intro bs' _ h2 h
      cases bs' with
      | nil => rfl
      | cons b bs' =>
        have := congrArg List.length h
        simp [h2 b (by simp)] at this
        omega
    | cons b bs ih =>
      intro bs' h1 h2 h
      cases bs' with
      | nil =>
        have := congrArg List.length h
        simp [h1 b (by simp)] at this
      | cons b' bs' =>
        simp only [List.flatten_cons] at h
        obtain ⟨e1, e2⟩ := List.append_inj h ((h1 b (by simp)).trans (h2 b' (by simp)).symm)
        rw [e1, ih bs' (fun x hx => h1 x (by simp [hx])) (fun x hx => h2 x (by simp [hx])) e2]
  rw [h1, Option.some.injEq] at h1'
  have := hb bs bs' h3 h3' h1'
  subst this
  rw [h2] at h2'
  have e3 : vs = vs' := map_inj (fun a b h => UInt64.toNat_inj.1 h) h2'
  rw [e, e', List.take_left' hl, List.take_left' hl', e3]

/-- C124: the generator stops the program when it produces the word zero, which it may (violated by the code; the assertion has
no ground). -/
theorem C124_zero_aborts (ws : List UInt64) : random64 (0 :: ws) = none ∧ randomHex 1 (0 :: ws) = none := by
  constructor <;> rfl

/-- C124: a random alphanumeric text has the wanted number of characters, all of them digits or capital letters, one for every
word; for a negative number it is empty. -/
theorem C124_alphanumeric (n : Int) (ws : List UInt64) (h : n ≤ ws.length) :
    ∃ s, alphanumericString n ws = some (s, ws.drop n.toNat) ∧ s.length = n.toNat ∧
      ∀ c ∈ s, ('0' ≤ c ∧ c ≤ '9') ∨ ('A' ≤ c ∧ c ≤ 'Z') := by
  have hc : ∀ k < 36, ('0' ≤ alphanumericChars.getD k '\x00' ∧ alphanumericChars.getD k '\x00' ≤ '9') ∨
      ('A' ≤ alphanumericChars.getD k '\x00' ∧ alphanumericChars.getD k '\x00' ≤ 'Z') := by decide +kernel
  have key : ∀ (n : Nat) (ws : List UInt64), n ≤ ws.length → ∃ s, alphanumericLoop n ws = some (s, ws.drop n) ∧ s.length = n ∧
      ∀ c ∈ s, ('0' ≤ c ∧ c ≤ '9') ∨ ('A' ≤ c ∧ c ≤ 'Z') := by
    intro n
    induction n with
    | zero => intro ws _; exact ⟨[], rfl, rfl, by simp⟩
    | succ n ih =>
      intro ws h
      cases ws with
      | nil => simp at h
      | cons w ws =>
        obtain ⟨s, h1, h2, h3⟩ := ih ws (by simpa using h)
        refine ⟨alphanumericChars.getD (w.toNat % 36) '\x00' :: s, ?_, by simp [h2], ?_⟩
        · simp [alphanumericLoop, h1]
        · intro c hc'
          rcases List.mem_cons.1 hc' with rfl | hc'
          · exact hc _ (Nat.mod_lt _ (by decide))
          · exact h3 c hc'
  exact key n.toNat ws (by omega)

/-- C124: every text of digits and capital letters can come out. -/
theorem C124_all_texts (s : Str) (h : ∀ c ∈ s, ('0' ≤ c ∧ c ≤ '9') ∨ ('A' ≤ c ∧ c ≤ 'Z')) :
    ∃ ws, alphanumericString s.length ws = some (s, []) := by
  have hc : ∀ c : Char, (('0' ≤ c ∧ c ≤ '9') ∨ ('A' ≤ c ∧ c ≤ 'Z')) → ∃ k < 36, alphanumericChars.getD k '\x00' = c := by
    intro c h
    have hn : (48 ≤ c.toNat ∧ c.toNat ≤ 57) ∨ (65 ≤ c.toNat ∧ c.toNat ≤ 90) := h
    have key : ∀ m : Fin 91, ((48 ≤ m.val ∧ m.val ≤ 57) ∨ (65 ≤ m.val ∧ m.val ≤ 90)) →
        ∃ k : Fin 36, alphanumericChars.getD k.val '\x00' = Char.ofNat m.val := by decide +kernel
    obtain ⟨k, hk⟩ := key ⟨c.toNat, by omega⟩ hn
    exact ⟨k, k.2, by rw [hk]; exact Char.ofNat_toNat c⟩
  have key : ∀ s : Str, (∀ c ∈ s, ('0' ≤ c ∧ c ≤ '9') ∨ ('A' ≤ c ∧ c ≤ 'Z')) →
      ∃ ws, alphanumericLoop s.length ws = some (s, []) := by
    intro s
    induction s with
    | nil => intro _; exact ⟨[], rfl⟩
    | cons c s ih =>
      intro h
      obtain ⟨ws, h1⟩ := ih fun x hx => h x (by simp [hx])
      obtain ⟨k, h2, h3⟩ := hc c (h c (by simp))
      refine ⟨UInt64.ofNat k :: ws, ?_⟩
      have : (UInt64.ofNat k).toNat % 36 = k := by
        rw [UInt64.toNat_ofNat']; omega
      simp only [List.length_cons, alphanumericLoop, h1, this, h3]
  exact key s h

example : alphanumericString 3 [10, 35, 36, 7] = some ("AZ0".toList, [7]) := by decide +kernel
example : (randomHex 1 [0x0123456789abcdef, 5]).map (·.1) = some "efcdab8967452301".toList := by decide +kernel

/-! ## C125 -/

/-- C125: the clocks agree with each other: seconds, milliseconds and microseconds of the same instant are one another rounded
down, and nothing is lost by the conversions for half a million years. -/
theorem C125_units (t : Timeval) (hu : t.usec < 1000000) (hs : t.sec < 18000000000000) :
    clockMicros t = t.sec * 1000000 + t.usec ∧ clockMillis t = clockMicros t / 1000 ∧ clockSeconds t = clockMicros t / 1000000 := by
  unfold clockMicros clockMillis clockSeconds
  have e1 : (t.sec * 1000000 + t.usec) % 2 ^ 64 = t.sec * 1000000 + t.usec := Nat.mod_eq_of_lt (by omega)
  have e2 : (t.sec * 1000 + t.usec / 1000) % 2 ^ 64 = t.sec * 1000 + t.usec / 1000 := Nat.mod_eq_of_lt (by omega)
  have e3 : t.sec % 2 ^ 64 = t.sec := Nat.mod_eq_of_lt (by omega)
  rw [e1, e2, e3]
  omega

/-- C125: later instants have later times, in every unit. -/
theorem C125_order (t t' : Timeval) (hu : t.usec < 1000000) (hu' : t'.usec < 1000000) (hs : t.sec < 18000000000000)
    (hs' : t'.sec < 18000000000000) (h : t.sec < t'.sec ∨ (t.sec = t'.sec ∧ t.usec ≤ t'.usec)) :
    clockMicros t ≤ clockMicros t' ∧ clockMillis t ≤ clockMillis t' ∧ clockSeconds t ≤ clockSeconds t' ∧
    (clockMicros t = clockMicros t' → t.sec = t'.sec ∧ t.usec = t'.usec) := by
  obtain ⟨a1, a2, a3⟩ := C125_units t hu hs
  obtain ⟨b1, b2, b3⟩ := C125_units t' hu' hs'
  rw [a2, a3, b2, b3, a1, b1]
  omega

/-- C125: the monotonic clock counts microseconds: it never goes back when the clock of the system does not, and the
difference of two readings is the time between them, to a microsecond. -/
theorem C125_monotonic (s ns s' ns' : Nat) (hn : ns < 1000000000) (hn' : ns' < 1000000000) (hs : s < 18000000000000)
    (hs' : s' < 18000000000000) (h : s * 1000000000 + ns ≤ s' * 1000000000 + ns') :
    monotonicMicros s ns ≤ monotonicMicros s' ns' ∧
    (monotonicMicros s' ns' - monotonicMicros s ns) * 1000 < (s' * 1000000000 + ns') - (s * 1000000000 + ns) + 1000 ∧
    (s' * 1000000000 + ns') - (s * 1000000000 + ns) < (monotonicMicros s' ns' - monotonicMicros s ns) * 1000 + 1000 := by
  have e : ∀ s ns, ns < 1000000000 → s < 18000000000000 → monotonicMicros s ns = s * 1000000 + ns / 1000 := by
    intro s ns h1 h2
    unfold monotonicMicros
    rw [Nat.mod_eq_of_lt (show s < 2 ^ 64 by omega), Nat.mod_eq_of_lt (by omega)]
  rw [e s ns hn hs, e s' ns' hn' hs']
  omega

/-- C125: so many days from now is, to a microsecond, the instant that many times 24 hours later (or earlier), unless that is
before 1970. -/
theorem C125_days (t : Timeval) (hu : t.usec < 1000000) (hs : t.sec < 9000000000000) (d : ℝ)
    (h0 : 0 ≤ (t.sec : ℝ) + t.usec / 1000000 + d * (24 * 60 * 60)) (h1 : d ≤ 100000000) :
    ∃ n, daysFromNow t d = some n ∧ (n : ℝ) / 1000000 ≤ (t.sec : ℝ) + t.usec / 1000000 + d * (24 * 60 * 60) ∧
      (t.sec : ℝ) + t.usec / 1000000 + d * (24 * 60 * 60) < ((n : ℝ) + 1) / 1000000 := by
  have e := (C125_units t hu (by omega)).1
  have ec : (clockMicros t : ℝ) = t.sec * 1000000 + t.usec := by rw [e]; push_cast; ring
  have h2 : (0 : ℝ) ≤ (clockMicros t : ℝ) + d * 86400000000 := by rw [ec]; linarith
  have hs' : (t.sec : ℝ) ≤ 9000000000000 := by exact_mod_cast hs.le
  have hu' : (t.usec : ℝ) ≤ 1000000 := by exact_mod_cast hu.le
  refine ⟨⌊(clockMicros t : ℝ) + d * 86400000000⌋₊, ?_, ?_, ?_⟩
  · unfold daysFromNow
    rw [if_pos ⟨by linarith, by rw [ec]; norm_num; linarith⟩]
  · have := Nat.floor_le h2
    rw [ec] at this ⊢
    linarith
  · have := Nat.lt_floor_add_one ((clockMicros t : ℝ) + d * 86400000000)
    rw [ec] at this ⊢
    linarith

/-- C125: a whole number of days from now it is the same time of day, that many days later. -/
theorem C125_whole_days (t : Timeval) (hu : t.usec < 1000000) (hs : t.sec < 9000000000000) (d : Nat) (hd : d ≤ 100000000) :
    ∃ n, daysFromNow t d = some n ∧ n % 86400000000 = clockMicros t % 86400000000 ∧
      n / 86400000000 = clockMicros t / 86400000000 + d := by
  have e := (C125_units t hu (by omega)).1
  have ev : (clockMicros t : ℝ) + (d : ℝ) * 86400000000 = ((clockMicros t + d * 86400000000 : Nat) : ℝ) := by push_cast; ring
  refine ⟨clockMicros t + d * 86400000000, ?_, by omega, by omega⟩
  unfold daysFromNow
  simp only [ev, Nat.floor_natCast]
  rw [if_pos]
  refine ⟨by have := Nat.cast_nonneg (α := ℝ) (clockMicros t + d * 86400000000); linarith, ?_⟩
  have : clockMicros t + d * 86400000000 < 2 ^ 64 := by rw [e]; omega
  exact_mod_cast this

example : daysFromNow ⟨1000, 5⟩ (1 / 2) = some 44200000005 := by
  have e : (clockMicros ⟨1000, 5⟩ : ℝ) + 1 / 2 * 86400000000 = ((44200000005 : Nat) : ℝ) := by
    rw [show clockMicros ⟨1000, 5⟩ = 1000000005 from by decide]; norm_num
  unfold daysFromNow
  simp only [e, Nat.floor_natCast]
  rw [if_pos]
  norm_num

example : clockMillis ⟨1456749296, 750999⟩ = 1456749296750 := by decide

end Clip
