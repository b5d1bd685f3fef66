import Verif.Props.Scale
import Verif.Lemmas.Quarters
import Mathlib.Tactic.Tauto
/-!
# C24, C25: tick layouts (`src/scale.cc`)
-/
set_option linter.unusedSimpArgs false
namespace Clip
open ScaleSpec

theorem pushTicks_ticksAt (toS : ℝ → Str) (fmt : Formatter) (pos : ℝ → Option ℝ) (vs : List ℝ) :
    TicksAt toS fmt pos vs (pushTicks pos (fun i v => fmt i (toS v)) {} 0 vs) := by
  simp [TicksAt, pushTicks]

theorem mem_tickVals (b e step : ℝ) (hs : 0 < step) (v : ℝ) :
    v ∈ tickVals b step (tickCount b e step) ↔ (∃ k : ℕ, v = b + k * step) ∧ v ≤ e := by
  obtain ⟨h1, h2⟩ := tickCount_spec b e step hs
  simp only [tickVals, List.mem_map, List.mem_range]
  constructor
  · rintro ⟨k, hk, rfl⟩
    exact ⟨⟨k, rfl⟩, h1 k hk⟩
  · rintro ⟨⟨k, rfl⟩, hle⟩
    refine ⟨k, ?_, rfl⟩
    by_contra hcon
    have : (tickCount b e step : ℝ) ≤ k := by exact_mod_cast not_lt.1 hcon
    have := mul_le_mul_of_nonneg_right this hs.le
    linarith

theorem tickVals_sorted (b step : ℝ) (hs : 0 < step) (n : Nat) : (tickVals b step n).Pairwise (· < ·) := by
  unfold tickVals
  rw [List.pairwise_map]
  apply List.pairwise_lt_range.imp
  intro i j hij
  have : (i : ℝ) < j := by exact_mod_cast hij
  have := mul_lt_mul_of_pos_right this hs
  linarith

theorem tickCount_bound (b e step : ℝ) (h : ¬ tooMany .exact b e step) (hs : 0 < step) :
    tickCount b e step ≤ 8193 := by
  have h' : (e - b) / step ≤ 8192 := by
    simpa [tooMany, hs.ne', kMaxTicks] using h
  unfold tickCount
  split
  · have : ⌊(e - b) / step⌋₊ ≤ 8192 := by
      apply Nat.floor_le_of_le
      exact_mod_cast h'
    omega
  · omega

theorem linear_ticks (toS : ℝ → Str) (s : Scale) (fmt : Formatter) (step : ℝ) (hs : 0 < step)
    (hm : ¬ tooMany .exact (scaleMin .exact s) (scaleMax .exact s) step) :
    ∃ vs out, LayoutLinear .exact toS s fmt {} step (out, .ok) ∧
      TicksAt toS fmt (scaleTranslate .exact s) vs out ∧ vs.Pairwise (· < ·) ∧ vs.length ≤ 8193 ∧
      ∀ v, v ∈ vs ↔ (∃ k : ℕ, v = scaleMin .exact s + k * step) ∧ v ≤ scaleMax .exact s := by
  obtain ⟨h1, h2⟩ := tickCount_spec (scaleMin .exact s) (scaleMax .exact s) step hs
  refine ⟨tickVals (scaleMin .exact s) step (tickCount (scaleMin .exact s) (scaleMax .exact s) step), _, ?_,
    pushTicks_ticksAt _ _ _ _, tickVals_sorted _ _ hs _, ?_, mem_tickVals _ _ _ hs⟩
  · unfold LayoutLinear layoutLinearStart
    rw [if_neg hm]
    exact tick_loop toS s fmt step _ _ _ 0 {} h1 h2
  · simpa [tickVals] using tickCount_bound _ _ _ hm hs

theorem interval_ticks (toS : ℝ → Str) (s : Scale) (fmt : Formatter) (step b e : ℝ) (hs : 0 < step)
    (hm : ¬ tooMany .exact (max b (scaleMin .exact s)) (min e (scaleMax .exact s)) step) :
    ∃ vs out, LayoutInterval .exact toS s fmt step b e (out, .ok) ∧
      TicksAt toS fmt (scaleTranslate .exact s) vs out ∧ vs.Pairwise (· < ·) ∧ vs.length ≤ 8193 ∧
      ∀ v, v ∈ vs ↔ (∃ k : ℕ, v = max b (scaleMin .exact s) + k * step) ∧ v ≤ e ∧ v ≤ scaleMax .exact s := by
  obtain ⟨h1, h2⟩ := tickCount_spec (max b (scaleMin .exact s)) (min e (scaleMax .exact s)) step hs
  refine ⟨tickVals (max b (scaleMin .exact s)) step
    (tickCount (max b (scaleMin .exact s)) (min e (scaleMax .exact s)) step), _, ?_,
    pushTicks_ticksAt _ _ _ _, tickVals_sorted _ _ hs _, ?_, ?_⟩
  · unfold LayoutInterval layoutIntervalStart
    simp only []
    rw [if_neg hm]
    exact tick_loop toS s fmt step _ _ _ 0 {} h1 h2
  · simpa [tickVals] using tickCount_bound _ _ _ hm hs
  · intro v
    rw [mem_tickVals _ _ _ hs, le_min_iff]

theorem tooMany_exact (b e step : ℝ) (hs : 0 < step) : tooMany .exact b e step = true ↔ 8192 < (e - b) / step := by
  simp [tooMany, hs.ne', kMaxTicks]

/-- C24, C25: the `linear` layout ends for every positive step; unless there are more than 8192 steps from the minimum to
the maximum, which is refused, the ticks are exactly the values `min, min + step, ...` up to `max`, in increasing order,
labelled in order, and there are at most 8193. -/
theorem C24_linear (toS : ℝ → Str) (s : Scale) (fmt : Formatter) (step : ℝ) (hs : 0 < step) :
    ((scaleMax .exact s - scaleMin .exact s) / step ≤ 8192 →
      ∃ vs out, LayoutLinear .exact toS s fmt {} step (out, .ok) ∧
        TicksAt toS fmt (scaleTranslate .exact s) vs out ∧ vs.Pairwise (· < ·) ∧ vs.length ≤ 8193 ∧
        ∀ v, v ∈ vs ↔ (∃ k : ℕ, v = scaleMin .exact s + k * step) ∧ v ≤ scaleMax .exact s) ∧
    (8192 < (scaleMax .exact s - scaleMin .exact s) / step →
      LayoutLinear .exact toS s fmt {} step ({}, .tooManyTicks)) := by
  refine ⟨fun h => linear_ticks toS s fmt step hs (by rw [tooMany_exact _ _ _ hs]; exact not_lt.2 h), fun h => ?_⟩
  unfold LayoutLinear layoutLinearStart
  rw [if_pos ((tooMany_exact _ _ _ hs).2 h)]
  rfl

/-- C24: the `linear-interval` layout: the same from the later of `begin` and the minimum to the earlier of `end`
and the maximum, whatever was in the layout before. -/
theorem C24_interval (toS : ℝ → Str) (s : Scale) (fmt : Formatter) (step b e : ℝ) (hs : 0 < step) :
    ((min e (scaleMax .exact s) - max b (scaleMin .exact s)) / step ≤ 8192 →
      ∃ vs out, LayoutInterval .exact toS s fmt step b e (out, .ok) ∧
        TicksAt toS fmt (scaleTranslate .exact s) vs out ∧ vs.Pairwise (· < ·) ∧ vs.length ≤ 8193 ∧
        ∀ v, v ∈ vs ↔ (∃ k : ℕ, v = max b (scaleMin .exact s) + k * step) ∧ v ≤ e ∧ v ≤ scaleMax .exact s) ∧
    (8192 < (min e (scaleMax .exact s) - max b (scaleMin .exact s)) / step →
      LayoutInterval .exact toS s fmt step b e ({}, .tooManyTicks)) := by
  refine ⟨fun h => interval_ticks toS s fmt step b e hs (by rw [tooMany_exact _ _ _ hs]; exact not_lt.2 h), fun h => ?_⟩
  unfold LayoutInterval layoutIntervalStart
  dsimp only
  rw [if_pos ((tooMany_exact _ _ _ hs).2 h)]
  rfl

/-- C24: hence all ticks of these layouts are inside the plot of a linear scale. -/
theorem C24_linear_inside (toS : ℝ → Str) (s : Scale) (hk : s.kind = .linear)
    (hlt : scaleMin .exact s < scaleMax .exact s) (fmt : Formatter) (step : ℝ) (hs : 0 < step)
    (out : ScaleLayout) (rc : LayoutRc) (h : LayoutLinear .exact toS s fmt {} step (out, rc)) :
    ∀ p ∈ out.positions, Inside p := by
  by_cases hm : tooMany .exact (scaleMin .exact s) (scaleMax .exact s) step = true
  · unfold LayoutLinear layoutLinearStart at h
    rw [if_pos hm] at h
    simp only [LayoutReturns, Prod.mk.injEq] at h
    rw [h.1]; simp
  · obtain ⟨vs, out', h1, h2, _, _, h5⟩ := linear_ticks toS s fmt step hs hm
    have : out = out' := by
      have : LayoutLinear .exact toS s fmt {} step (out', .ok) := h1
      unfold LayoutLinear layoutLinearStart at h this
      rw [if_neg hm] at h this
      exact congrArg Prod.fst (Returns.unique h this)
    subst this
    intro p hp
    rw [h2.1] at hp
    obtain ⟨v, hv, rfl⟩ := List.mem_map.1 hp
    obtain ⟨⟨k, hk'⟩, hle⟩ := (h5 v).1 hv
    refine (C20_linear_any_rounding .exact Arith.exact_good s hk (by simpa using hlt)).2.2.2 v ?_ hle
    have : (0 : ℝ) ≤ k * step := by positivity
    linarith

example : (scaleMax .exact (exScale 0 10) - scaleMin .exact (exScale 0 10)) / 2 ≤ 8192 := by
  norm_num [exScale, scaleMin, scaleMax]

/-- The aligned start. -/
theorem sub_fmod (x y : ℝ) : x - fmod x y = y * truncZ (x / y) := by simp [fmod]

theorem truncZ_le_ceil (x : ℝ) : truncZ x ≤ ⌈x⌉ := by
  unfold truncZ
  split
  · exact Int.floor_le_ceil x
  · exact le_refl _

theorem isNegative_linear (s : Scale) (hk : s.kind = .linear) (hi : s.inverted = false)
    (hlt : scaleMin .exact s < scaleMax .exact s) (v : ℝ) :
    (!isNegative (scaleTranslate .exact s v)) = decide (scaleMin .exact s ≤ v) := by
  have hpos : 0 < scaleMax .exact s - scaleMin .exact s := by linarith
  simp only [scaleTranslate, hk, translateLinear_exact s v hlt, hi, isNegative]
  rw [Bool.eq_iff_iff]
  simp
  rw [div_nonneg_iff]
  constructor
  · rintro (h | h) <;> linarith
  · intro h; left; constructor <;> linarith

theorem align_ticks (toS : ℝ → Str) (s : Scale) (hk : s.kind = .linear) (hi : s.inverted = false)
    (hlt : scaleMin .exact s < scaleMax .exact s) (fmt : Formatter) (step : ℝ) (hs : 0 < step)
    (hm : ¬ tooMany .exact (scaleMin .exact s - fmod (scaleMin .exact s) step) (scaleMax .exact s) step) :
    ∃ vs out, LayoutAlign toS s fmt {} step (out, .ok) ∧ TicksAt toS fmt (scaleTranslate .exact s) vs out ∧
      vs.Pairwise (· < ·) ∧ vs.length ≤ 8193 ∧
      ∀ v, v ∈ vs ↔ (∃ z : ℤ, v = z * step) ∧ scaleMin .exact s ≤ v ∧ v ≤ scaleMax .exact s := by
  obtain ⟨h1, h2⟩ := tickCount_spec (scaleMin .exact s - fmod (scaleMin .exact s) step) (scaleMax .exact s) step hs
  refine ⟨(tickVals (scaleMin .exact s - fmod (scaleMin .exact s) step) step
    (tickCount (scaleMin .exact s - fmod (scaleMin .exact s) step) (scaleMax .exact s) step)).filter
      (fun v => !isNegative (scaleTranslate .exact s v)), _, ?_, pushTicks_ticksAt _ _ _ _, ?_, ?_, ?_⟩
  · unfold LayoutAlign layoutAlignStart
    rw [if_neg hs.ne']
    simp only []
    rw [if_neg hm]
    exact tick_loop_skip toS s fmt step _ _ (fun v => rfl) _ _ 0 {} h1 h2
  · exact (tickVals_sorted _ _ hs _).filter _
  · refine (List.length_filter_le _ _).trans ?_
    simpa [tickVals] using tickCount_bound _ _ _ hm hs
  · intro v
    rw [List.mem_filter, mem_tickVals _ _ _ hs, isNegative_linear s hk hi hlt, sub_fmod]
    simp only [decide_eq_true_eq]
    constructor
    · rintro ⟨⟨⟨k, rfl⟩, h2⟩, h3⟩
      refine ⟨⟨truncZ (scaleMin .exact s / step) + k, ?_⟩, h3, h2⟩
      push_cast; ring
    · rintro ⟨⟨z, rfl⟩, h2, h3⟩
      refine ⟨⟨⟨(z - truncZ (scaleMin .exact s / step)).toNat, ?_⟩, h3⟩, h2⟩
      have hz : truncZ (scaleMin .exact s / step) ≤ z := by
        refine (truncZ_le_ceil _).trans (Int.ceil_le.2 ?_)
        rwa [div_le_iff₀ hs]
      have : (((z - truncZ (scaleMin .exact s / step)).toNat : ℤ) : ℝ) =
          ((z - truncZ (scaleMin .exact s / step) : ℤ) : ℝ) := by
        rw [Int.toNat_of_nonneg (by omega)]
      have e : (((z - truncZ (scaleMin .exact s / step)).toNat : ℕ) : ℝ) =
          (z : ℝ) - truncZ (scaleMin .exact s / step) := by
        have h' := this
        push_cast at h'
        exact_mod_cast h'
      rw [e]; ring

theorem align_inverted (toS : ℝ → Str) (s : Scale) (hk : s.kind = .linear) (hi : s.inverted = true)
    (hlt : scaleMin .exact s < scaleMax .exact s) (fmt : Formatter) (step : ℝ) (hs : 0 < step)
    (hm : ¬ tooMany .exact (scaleMin .exact s - fmod (scaleMin .exact s) step) (scaleMax .exact s) step)
    (h0 : 0 < scaleMin .exact s) (hnot : ∀ z : ℤ, scaleMin .exact s ≠ z * step) :
    ∃ out, LayoutAlign toS s fmt {} step (out, .ok) ∧ ∃ p, some p ∈ out.positions ∧ 1 < p := by
  obtain ⟨h1, h2⟩ := tickCount_spec (scaleMin .exact s - fmod (scaleMin .exact s) step) (scaleMax .exact s) step hs
  have hpos : 0 < scaleMax .exact s - scaleMin .exact s := by linarith
  refine ⟨pushTicks (scaleTranslate .exact s) (fun i v => fmt i (toS v)) {} 0
    ((tickVals (scaleMin .exact s - fmod (scaleMin .exact s) step) step
    (tickCount (scaleMin .exact s - fmod (scaleMin .exact s) step) (scaleMax .exact s) step)).filter
      (fun v => !isNegative (scaleTranslate .exact s v))), ?_, ?_⟩
  · unfold LayoutAlign layoutAlignStart
    rw [if_neg hs.ne']
    simp only []
    rw [if_neg hm]
    exact tick_loop_skip toS s fmt step _ _ (fun v => rfl) _ _ 0 {} h1 h2
  · have hb : scaleMin .exact s - fmod (scaleMin .exact s) step < scaleMin .exact s := by
      rw [sub_fmod]
      have hfl : truncZ (scaleMin .exact s / step) = ⌊scaleMin .exact s / step⌋ := by
        unfold truncZ; rw [if_pos (by positivity)]
      rw [hfl]
      have := Int.floor_le (scaleMin .exact s / step)
      rw [le_div_iff₀ hs] at this
      rcases lt_or_eq_of_le this with h | h
      · linarith
      · exact absurd h.symm (hnot _)
    have hp : scaleTranslate .exact s (scaleMin .exact s - fmod (scaleMin .exact s) step) = some (1 -
        (scaleMin .exact s - fmod (scaleMin .exact s) step - scaleMin .exact s) /
          (scaleMax .exact s - scaleMin .exact s)) := by
      simp only [scaleTranslate, hk, translateLinear_exact s _ hlt, hi, if_true]
    have hneg : (scaleMin .exact s - fmod (scaleMin .exact s) step - scaleMin .exact s) /
          (scaleMax .exact s - scaleMin .exact s) < 0 := div_neg_of_neg_of_pos (by linarith) hpos
    refine ⟨_, ?_, (by linarith : (1 : ℝ) < 1 - _)⟩
    · simp only [pushTicks, List.nil_append]
      rw [← hp]
      apply List.mem_map_of_mem
      rw [List.mem_filter]
      constructor
      · rw [mem_tickVals _ _ _ hs]
        exact ⟨⟨0, by simp⟩, by linarith⟩
      · rw [hp]
        simp only [isNegative, Bool.not_eq_true', decide_eq_false_iff_not, not_lt]
        linarith

example : (∀ z : ℤ, (1 : ℝ) ≠ z * 5) := by
  intro z h
  have : (1 : ℤ) = z * 5 := by exact_mod_cast h
  omega

theorem alignat_ticks (toS : ℝ → Str) (s : Scale) (hk : s.kind = .linear) (hi : s.inverted = false)
    (hlt : scaleMin .exact s < scaleMax .exact s) (fmt : Formatter) (step align : ℝ) (hs : 0 < step)
    (hm : ¬ tooMany .exact (scaleMin .exact s - fmod (scaleMin .exact s) step - fmod align step)
      (scaleMax .exact s) step) :
    ∃ vs out, LayoutAlignat toS s fmt {} step align (out, .ok) ∧ TicksAt toS fmt (scaleTranslate .exact s) vs out ∧
      vs.Pairwise (· < ·) ∧ vs.length ≤ 8193 ∧
      ∀ v, v ∈ vs ↔ (∃ k : ℕ, v = scaleMin .exact s - fmod (scaleMin .exact s) step - fmod align step + k * step) ∧
        scaleMin .exact s ≤ v ∧ v ≤ scaleMax .exact s := by
  obtain ⟨h1, h2⟩ := tickCount_spec (scaleMin .exact s - fmod (scaleMin .exact s) step - fmod align step)
    (scaleMax .exact s) step hs
  refine ⟨(tickVals (scaleMin .exact s - fmod (scaleMin .exact s) step - fmod align step) step
    (tickCount (scaleMin .exact s - fmod (scaleMin .exact s) step - fmod align step) (scaleMax .exact s) step)).filter
      (fun v => !isNegative (scaleTranslate .exact s v)), _, ?_, pushTicks_ticksAt _ _ _ _, ?_, ?_, ?_⟩
  · unfold LayoutAlignat layoutAlignatStart
    rw [if_neg hs.ne']
    simp only []
    rw [if_neg hm]
    exact tick_loop_skip toS s fmt step _ _ (fun v => rfl) _ _ 0 {} h1 h2
  · exact (tickVals_sorted _ _ hs _).filter _
  · refine (List.length_filter_le _ _).trans ?_
    simpa [tickVals] using tickCount_bound _ _ _ hm hs
  · intro v
    rw [List.mem_filter, mem_tickVals _ _ _ hs, isNegative_linear s hk hi hlt]
    simp only [decide_eq_true_eq]
    tauto

theorem fmod_start {step x b : ℝ} (hs : 0 < step) (h : MultipleBefore step x b) : x - fmod x step = b := by
  obtain ⟨⟨z, rfl⟩, h1, h2⟩ := h
  rw [sub_fmod, mul_comm]
  congr 1
  norm_cast
  have hq : x / step * step = x := div_mul_cancel₀ x hs.ne'
  rw [← hq, ← sub_mul, abs_mul, abs_of_pos hs] at h2
  rw [← hq, abs_mul, abs_mul, abs_of_pos hs] at h1
  have h1 : |(z : ℝ)| ≤ |x / step| := le_of_mul_le_mul_right h1 hs
  have h2 : |x / step - z| < 1 := by
    by_contra hc
    have := mul_le_mul_of_nonneg_right (not_lt.1 hc) hs.le
    linarith
  generalize x / step = q at h1 h2
  rw [abs_lt] at h2
  unfold truncZ
  split
  · rename_i hq
    rw [Int.floor_eq_iff]
    rw [abs_of_nonneg hq] at h1
    have := (abs_le.1 h1).2
    exact ⟨this, by linarith⟩
  · rename_i hq
    rw [Int.ceil_eq_iff]
    rw [abs_of_neg (not_le.1 hq)] at h1
    have := (abs_le.1 h1).1
    exact ⟨by linarith, by linarith⟩

/-- C24: the `linear-align` layout of a linear scale that is not inverted has its ticks exactly at the multiples of
the step inside the domain, unless there are more than 8192 steps from the multiple before the minimum to the maximum,
which is refused. -/
theorem C24_align (toS : ℝ → Str) (s : Scale) (hk : s.kind = .linear) (hi : s.inverted = false)
    (hlt : scaleMin .exact s < scaleMax .exact s) (fmt : Formatter) (step b : ℝ) (hs : 0 < step)
    (hb : MultipleBefore step (scaleMin .exact s) b) :
    ((scaleMax .exact s - b) / step ≤ 8192 →
      ∃ vs out, LayoutAlign toS s fmt {} step (out, .ok) ∧ TicksAt toS fmt (scaleTranslate .exact s) vs out ∧
        vs.Pairwise (· < ·) ∧ vs.length ≤ 8193 ∧
        ∀ v, v ∈ vs ↔ (∃ z : ℤ, v = z * step) ∧ scaleMin .exact s ≤ v ∧ v ≤ scaleMax .exact s) ∧
    (8192 < (scaleMax .exact s - b) / step → LayoutAlign toS s fmt {} step ({}, .tooManyTicks)) := by
  rw [← fmod_start hs hb]
  refine ⟨fun h => align_ticks toS s hk hi hlt fmt step hs (by rw [tooMany_exact _ _ _ hs]; exact not_lt.2 h),
    fun h => ?_⟩
  unfold LayoutAlign layoutAlignStart
  rw [if_neg hs.ne']
  dsimp only
  rw [if_pos ((tooMany_exact _ _ _ hs).2 h)]
  rfl

/-- C24 (violated by the code): on an inverted linear scale whose positive minimum is not a multiple of the step,
the aligned layout has a tick outside the plot. -/
theorem C24_align_inverted_outside (toS : ℝ → Str) (s : Scale) (hk : s.kind = .linear) (hi : s.inverted = true)
    (hlt : scaleMin .exact s < scaleMax .exact s) (fmt : Formatter) (step b : ℝ) (hs : 0 < step)
    (hb : MultipleBefore step (scaleMin .exact s) b) (hm : (scaleMax .exact s - b) / step ≤ 8192)
    (h0 : 0 < scaleMin .exact s) (hnot : ∀ z : ℤ, scaleMin .exact s ≠ z * step) :
    ∃ out, LayoutAlign toS s fmt {} step (out, .ok) ∧ ∃ p, some p ∈ out.positions ∧ 1 < p :=
  align_inverted toS s hk hi hlt fmt step hs
    (by rw [tooMany_exact _ _ _ hs, fmod_start hs hb]; exact not_lt.2 hm) h0 hnot

example : MultipleBefore 5 1 0 ∧ MultipleBefore 5 (-7) (-5) ∧ MultipleBefore 5 10 10 :=
  ⟨⟨⟨0, by norm_num⟩, by norm_num, by norm_num⟩, ⟨⟨-1, by norm_num⟩, by norm_num, by norm_num⟩,
    ⟨⟨2, by norm_num⟩, by norm_num, by norm_num⟩⟩

/-- C24: what the `linear-alignat` layout of a linear scale that is not inverted really does: it subtracts the rest of
the alignment from the multiple of the step before the minimum, instead of adding it. -/
theorem C24_alignat_ticks (toS : ℝ → Str) (s : Scale) (hk : s.kind = .linear) (hi : s.inverted = false)
    (hlt : scaleMin .exact s < scaleMax .exact s) (fmt : Formatter) (step align b c : ℝ) (hs : 0 < step)
    (hb : MultipleBefore step (scaleMin .exact s) b) (hc : MultipleBefore step align c) :
    ((scaleMax .exact s - (b - (align - c))) / step ≤ 8192 →
      ∃ vs out, LayoutAlignat toS s fmt {} step align (out, .ok) ∧
        TicksAt toS fmt (scaleTranslate .exact s) vs out ∧ vs.Pairwise (· < ·) ∧ vs.length ≤ 8193 ∧
        ∀ v, v ∈ vs ↔ (∃ k : ℕ, v = b - (align - c) + k * step) ∧
          scaleMin .exact s ≤ v ∧ v ≤ scaleMax .exact s) ∧
    (8192 < (scaleMax .exact s - (b - (align - c))) / step →
      LayoutAlignat toS s fmt {} step align ({}, .tooManyTicks)) := by
  have e : align - c = fmod align step := by rw [← fmod_start hs hc]; ring
  rw [e, ← fmod_start hs hb]
  refine ⟨fun h => alignat_ticks toS s hk hi hlt fmt step align hs
    (by rw [tooMany_exact _ _ _ hs]; exact not_lt.2 h), fun h => ?_⟩
  unfold LayoutAlignat layoutAlignatStart
  rw [if_neg hs.ne']
  dsimp only
  rw [if_pos ((tooMany_exact _ _ _ hs).2 h)]
  rfl

/-- C24 (violated by the code): `linear-alignat` with step 5 at 1 on the domain [0, 10] has its ticks at 4 and 9;
there is no tick at 1. -/
theorem C24_alignat_fails (toS : ℝ → Str) (fmt : Formatter) :
    ∃ out, LayoutAlignat toS (exScale 0 10) fmt {} 5 1 (out, .ok) ∧
      TicksAt toS fmt (scaleTranslate .exact (exScale 0 10)) [4, 9] out := by
  have hmin : scaleMin .exact (exScale 0 10) = 0 := rfl
  have hmax : scaleMax .exact (exScale 0 10) = 10 := rfl
  have f1 : fmod 0 5 = 0 := by simp [fmod, truncZ]
  have f2 : fmod 1 5 = 1 := by
    have : truncZ (1 / 5) = 0 := by
      unfold truncZ; rw [if_pos (by norm_num), Int.floor_eq_iff]; norm_num
    simp only [fmod, this]; norm_num
  obtain ⟨vs, out, h1, h2, h3, _, h5⟩ := alignat_ticks toS (exScale 0 10) rfl rfl (by rw [hmin, hmax]; norm_num)
    fmt 5 1 (by norm_num) (by rw [hmin, hmax, f1, f2]; norm_num [tooMany, kMaxTicks])
  refine ⟨out, h1, ?_⟩
  rw [hmin, hmax, f1, f2] at h5
  have hvs : vs = [4, 9] := by
    have hmem : ∀ v, v ∈ vs ↔ v = 4 ∨ v = 9 := by
      intro v
      rw [h5]
      constructor
      · rintro ⟨⟨k, rfl⟩, ha, hb⟩
        have k1 : (k : ℝ) < 3 := by linarith
        have k2 : (0 : ℝ) < k := by linarith
        have k1' : k < 3 := by exact_mod_cast k1
        have k2' : 0 < k := by exact_mod_cast k2
        have : k = 1 ∨ k = 2 := by omega
        rcases this with rfl | rfl
        · left; norm_num
        · right; norm_num
      · rintro (rfl | rfl)
        · exact ⟨⟨1, by norm_num⟩, by norm_num, by norm_num⟩
        · exact ⟨⟨2, by norm_num⟩, by norm_num, by norm_num⟩
    have hperm : vs.Perm [4, 9] := by
      rw [List.perm_ext_iff_of_nodup (h3.imp (fun h => ne_of_lt h)) (by norm_num)]
      intro v; rw [hmem]; simp
    exact List.Perm.eq_of_pairwise (le := (· < ·)) (fun a b _ _ h h' => absurd h (lt_asymm h')) h3 (by norm_num) hperm
  rw [← hvs]; exact h2

/-- C24: `linear-alignat` is right when the alignment is a multiple of the step: it is then the `linear-align`
layout, with ticks at all multiples. -/
theorem C24_alignat_multiple_partial (toS : ℝ → Str) (s : Scale) (fmt : Formatter) (step : ℝ) (hs : 0 < step)
    (z : ℤ) (r : ScaleLayout × LayoutRc) :
    LayoutAlignat toS s fmt {} step (z * step) r ↔ LayoutAlign toS s fmt {} step r := by
  have : fmod (z * step) step = 0 := by
    unfold fmod
    rw [mul_div_cancel_right₀ _ hs.ne']
    have : truncZ (z : ℝ) = z := by unfold truncZ; split <;> simp
    rw [this]; ring
  unfold LayoutAlignat LayoutAlign layoutAlignatStart layoutAlignStart
  simp [this]

/-- C24: the `subdivide` layout has its ticks at `0, 1/n, ..., 1`, each labelled with the value drawn there. -/
theorem C24_subdivide (toS : Option ℝ → Str) (s : Scale) (hk : s.kind = .linear)
    (hlt : scaleMin .exact s < scaleMax .exact s) (fmt : Formatter) (n : Nat) (hn : 1 ≤ n) :
    ∃ vs : List ℝ, vs.length = n + 1 ∧
      (layoutSubdivide .exact toS s fmt n).positions = (List.range (n + 1)).map (fun i : ℕ => some ((i : ℝ) / n)) ∧
      (layoutSubdivide .exact toS s fmt n).positions = vs.map (scaleTranslate .exact s) ∧
      (layoutSubdivide .exact toS s fmt n).labels = vs.mapIdx fun i v => fmt i (toS (some v)) := by
  have hn0 : n ≠ 0 := by omega
  have hpos : (0 : ℝ) < n := by exact_mod_cast hn
  have e : layoutSubdivide .exact toS s fmt n =
      ⟨(List.range (n + 1)).map (fun i : ℕ => some ((i : ℝ) / n)),
       (List.range (n + 1)).map fun i : ℕ => fmt i (toS (some (untranslateLinear .exact s ((i : ℝ) / n))))⟩ := by
    unfold layoutSubdivide
    simp only [hn0, if_false]
    rw [foldl_push]
    congr 1
    · apply List.map_congr_left
      intro i _
      simp; ring
    · apply List.map_congr_left
      intro i _
      simp [scaleUntranslate, hk]
      ring_nf
  refine ⟨(List.range (n + 1)).map fun i : ℕ => untranslateLinear .exact s ((i : ℝ) / n), by simp, ?_, ?_, ?_⟩
  · rw [e]
  · rw [e, List.map_map]
    apply List.map_congr_left
    intro i _
    have := (C20_linear_exact s hk hlt).2.2 ((i : ℝ) / n)
    simp only [scaleUntranslate, hk, Option.bind_some] at this
    exact this.symm
  · rw [e]
    apply List.ext_getElem <;> simp

/-- C24 (violated by the code): the labels of a subdivided logarithmic scale are wrong, the first one already: it
shows the minimum plus one. -/
theorem C24_subdivide_log_fails (toS : Option ℝ → Str) (s : Scale) (hk : s.kind = .logarithmic) (hb : 1 < s.logBase)
    (hi : s.inverted = false) (hlt : scaleMin .exact s < scaleMax .exact s) (fmt : Formatter) (n : Nat)
    (hn : 1 ≤ n) :
    (layoutSubdivide .exact toS s fmt n).positions[0]? = some (some 0) ∧
    (layoutSubdivide .exact toS s fmt n).labels[0]? = some (fmt 0 (toS (some (scaleMin .exact s + 1)))) := by
  have hn0 : n ≠ 0 := by omega
  have h1 : ¬ (scaleMax .exact s - scaleMin .exact s ≤ 0 ∨ s.logBase ≤ 0 ∨ s.logBase = 1) := by
    rintro (h | h | h) <;> linarith
  unfold layoutSubdivide
  simp only [hn0, if_false]
  rw [foldl_push]
  have h2 : ¬ (scaleMax .exact s ≤ scaleMin .exact s ∨ s.logBase ≤ 0 ∨ s.logBase = 1) := by
    rintro (h | h | h) <;> linarith
  simp [scaleUntranslate, hk, untranslateLog, h1, h2, hi]

/-- C25: the linear layouts end for every positive step and yield at most 8193 ticks. -/
theorem C25_positive_step_terminates (toS : ℝ → Str) (s : Scale) (fmt : Formatter) (step : ℝ) (hs : 0 < step) :
    (∃ r, LayoutLinear .exact toS s fmt {} step r ∧ r.1.positions.length ≤ 8193) ∧
    (∀ b e, ∃ r, LayoutInterval .exact toS s fmt step b e r ∧ r.1.positions.length ≤ 8193) ∧
    (∃ r, LayoutAlign toS s fmt {} step r ∧ r.1.positions.length ≤ 8193) ∧
    (∀ al, ∃ r, LayoutAlignat toS s fmt {} step al r ∧ r.1.positions.length ≤ 8193) := by
  have key : ∀ (b e : ℝ) (skip : Bool), ∃ r, LayoutReturns (tickStep .exact toS s fmt step e skip)
      (if tooMany .exact b e step then .inl ({}, .tooManyTicks) else .inr (b, 0, {})) r ∧
      r.1.positions.length ≤ 8193 := by
    intro b e skip
    by_cases hm : tooMany .exact b e step = true
    · exact ⟨_, by rw [if_pos hm]; exact rfl, by simp⟩
    · obtain ⟨h1, h2⟩ := tickCount_spec b e step hs
      cases skip with
      | false =>
        refine ⟨_, by rw [if_neg hm]; exact tick_loop toS s fmt step _ _ _ 0 {} h1 h2, ?_⟩
        simpa [pushTicks, tickVals] using tickCount_bound _ _ _ hm hs
      | true =>
        refine ⟨_, by rw [if_neg hm]; exact tick_loop_skip toS s fmt step _ _ (fun v => rfl) _ _ 0 {} h1 h2, ?_⟩
        simp only [pushTicks, List.nil_append, List.length_map]
        refine (List.length_filter_le _ _).trans ?_
        simpa [tickVals] using tickCount_bound _ _ _ hm hs
  refine ⟨key _ _ _, fun b e => key _ _ _, ?_, ?_⟩
  · unfold LayoutAlign layoutAlignStart
    rw [if_neg hs.ne']
    exact key _ _ _
  · intro al
    unfold LayoutAlignat layoutAlignatStart
    rw [if_neg hs.ne']
    exact key _ _ _

/-- C25 (violated by the code): with a negative step, the `linear` and `linear-interval` layouts never end, whatever
the rounding. -/
theorem C25_negative_step_diverges (a : Arith) (ha : a.Good) (toS : ℝ → Str) (s : Scale) (fmt : Formatter)
    (step : ℝ) (hs : step < 0) (hlt : scaleMin a s ≤ scaleMax a s) (hrep : a.d (scaleMin a s) = scaleMin a s) :
    (∀ r, ¬ LayoutLinear a toS s fmt {} step r) ∧
    (∀ b e, b ≤ scaleMin a s → scaleMax a s ≤ e → ∀ r, ¬ LayoutInterval a toS s fmt step b e r) := by
  have hm : ¬ tooMany a (scaleMin a s) (scaleMax a s) step = true := by
    simp only [tooMany, hs.ne, if_false, decide_eq_true_eq, not_lt, gt_iff_lt]
    have h1 : 0 ≤ a.d (scaleMax a s - scaleMin a s) := by
      rw [← ha.zero]; exact ha.mono (by linarith)
    have h2 : a.d (scaleMax a s - scaleMin a s) / step ≤ 0 := div_nonpos_of_nonneg_of_nonpos h1 hs.le
    have h3 : a.d (a.d (scaleMax a s - scaleMin a s) / step) ≤ 0 := (ha.mono h2).trans ha.zero.le
    unfold kMaxTicks; linarith
  have key : ∀ l, Diverges (tickStep a toS s fmt step (scaleMax a s) false) (scaleMin a s, 0, l) := by
    intro l
    apply Diverges.of_invariant (fun st : ℝ × Nat × ScaleLayout => st.1 ≤ scaleMax a s ∧ a.d st.1 = st.1)
    · rintro ⟨v, idx, l⟩ ⟨h1, h2⟩
      simp only [] at h1 h2
      refine ⟨(a.d (v + step), idx + 1, l.push (scaleTranslate a s v) (fmt idx (toS v))), ?_, ?_, ?_⟩
      · simp [tickStep, h1]
      · have := ha.mono (by linarith : v + step ≤ v)
        simp only []
        linarith
      · exact ha.idem _
    · exact ⟨hlt, hrep⟩
  constructor
  · unfold LayoutLinear layoutLinearStart
    rw [if_neg hm]
    exact fun r => (key _).not_returns
  · intro b e hb he
    unfold LayoutInterval layoutIntervalStart
    simp only [max_eq_right hb, min_eq_right he]
    rw [if_neg hm]
    exact fun r => (key _).not_returns

/-- C25: a step of zero is refused if the domain is not a single point; otherwise the layout never ends. -/
theorem C25_zero_step (a : Arith) (ha : a.Good) (toS : ℝ → Str) (s : Scale) (fmt : Formatter)
    (hrep : a.d (scaleMin a s) = scaleMin a s) :
    (0 < a.d (scaleMax a s - scaleMin a s) → LayoutLinear a toS s fmt {} 0 ({}, .tooManyTicks)) ∧
    (scaleMax a s = scaleMin a s → ∀ r, ¬ LayoutLinear a toS s fmt {} 0 r) := by
  constructor
  · intro h
    unfold LayoutLinear layoutLinearStart tooMany
    simp [h, LayoutReturns]
  · intro h
    have hm : ¬ tooMany a (scaleMin a s) (scaleMax a s) 0 = true := by simp [tooMany, h, ha.zero]
    unfold LayoutLinear layoutLinearStart
    rw [if_neg hm]
    intro r
    apply Diverges.not_returns
    apply Diverges.of_invariant (fun st : ℝ × Nat × ScaleLayout => st.1 = scaleMin a s)
    · rintro ⟨v, idx, l⟩ hv
      simp only [] at hv
      subst hv
      exact ⟨(a.d (scaleMin a s + 0), idx + 1, l.push (scaleTranslate a s (scaleMin a s)) (fmt idx (toS (scaleMin a s)))),
        by simp [tickStep, h], by simpa using hrep⟩
    · rfl

/-- C25 (violated by the code): a positive step that is lost in rounding makes the layout run forever although the
test for too many ticks passes. -/
theorem C25_lost_step_diverges (a : Arith) (toS : ℝ → Str) (s : Scale) (fmt : Formatter) (step : ℝ)
    (hs : 0 < step) (hle : scaleMin a s ≤ scaleMax a s)
    (hm : a.d (a.d (scaleMax a s - scaleMin a s) / step) ≤ 8192)
    (hlost : a.d (scaleMin a s + step) = scaleMin a s) : ∀ r, ¬ LayoutLinear a toS s fmt {} step r := by
  have hm' : ¬ tooMany a (scaleMin a s) (scaleMax a s) step = true := by
    simp [tooMany, hs.ne', kMaxTicks, hm]
  unfold LayoutLinear layoutLinearStart
  rw [if_neg hm']
  intro r
  apply Diverges.not_returns
  apply Diverges.of_invariant (fun st : ℝ × Nat × ScaleLayout => st.1 = scaleMin a s)
  · rintro ⟨v, idx, l⟩ hv
    simp only [] at hv
    subst hv
    exact ⟨(a.d (scaleMin a s + step), idx + 1, l.push (scaleTranslate a s (scaleMin a s)) (fmt idx (toS (scaleMin a s)))),
      by simp [tickStep, hle], by simpa using hlost⟩
  · rfl

/-- Doubles from 2^53 to 2^54: multiples of 2 (halves rounded down). -/
noncomputable def dbl53 (x : ℝ) : ℝ := if x < 2 ^ 53 then x else 2 * ⌈x / 2 - 1 / 2⌉

example : let a : Arith := ⟨dbl53, id⟩; let s := exScale (2 ^ 53) (2 ^ 53 + 100)
    scaleMin a s ≤ scaleMax a s ∧ a.d (a.d (scaleMax a s - scaleMin a s) / 1) ≤ 8192 ∧
      a.d (scaleMin a s + 1) = scaleMin a s := by
  refine ⟨by norm_num [scaleMin, scaleMax, exScale], ?_, ?_⟩
  · norm_num [scaleMin, scaleMax, exScale, dbl53]
  · norm_num [scaleMin, exScale, dbl53]

theorem cPow_pos {base : ℝ} (hb : 0 < base) (e : ℝ) : cPow .exact base (.fin e) = .fin (base ^ e) := by
  unfold cPow
  dsimp only
  split
  · rename_i h
    rcases h with rfl | rfl <;> simp
  · rfl

/-- Where a power is finite the next one is finite; where it is NaN the next one is NaN. -/
theorem cPow_succ (base : ℝ) (e : Ext) : ((∃ v, cPow .exact base e = .fin v) → ∃ v, cPow .exact base (e.succ .exact) = .fin v) ∧
    (cPow .exact base e = .nan → cPow .exact base (e.succ .exact) = .nan) := by
  rcases e with e | _ | _ | _
  · rcases lt_trichotomy base 0 with hb | rfl | hb
    · have h1 : base ≠ 1 := by linarith
      have h2 : ¬ 0 < base := by linarith
      have hz : e = (⌊e⌋ : ℝ) ↔ e + 1 = (⌊e + 1⌋ : ℝ) := by rw [Int.floor_add_one]; push_cast; constructor <;> intro h <;> linarith
      constructor
      · rintro ⟨v, hv⟩
        have he : e = (⌊e⌋ : ℝ) := by
          by_contra hne
          have h0 : e ≠ 0 := by rintro rfl; simp at hne
          simp [cPow, h1, h2, hb.ne, h0, hne] at hv
        unfold Ext.succ cPow
        dsimp only
        by_cases a : base = 1 ∨ e + 1 = 0
        · exact ⟨1, if_pos a⟩
        · exact ⟨_, (if_neg a).trans ((if_neg h2).trans ((if_neg hb.ne).trans (if_pos (hz.1 he))))⟩
      · intro hv
        have he : ¬ e = (⌊e⌋ : ℝ) := by
          intro he
          unfold cPow at hv
          dsimp only at hv
          rw [if_neg h2, if_neg hb.ne, if_pos he] at hv
          split at hv <;> cases hv
        have h0 : e + 1 ≠ 0 := by
          intro h0
          exact he (hz.2 (by rw [h0]; simp))
        have h3 : ¬ (e + 1 = (⌊e + 1⌋ : ℝ)) := fun h => he (hz.2 h)
        unfold Ext.succ cPow
        dsimp only
        rw [if_neg (by rintro (h | h); exacts [h1 h, h0 h]), if_neg h2, if_neg hb.ne, Arith.exact_d, if_neg h3]
    · constructor
      · rintro ⟨v, hv⟩
        have he : 0 ≤ e := by
          by_contra hne
          have h0 : e ≠ 0 := by rintro rfl; simp at hne
          simp [cPow, h0, not_lt.2 (not_le.1 hne).le] at hv
        exact ⟨0, by simp [Ext.succ, cPow, (by linarith : e + 1 ≠ 0), (by linarith : 0 < e + 1)]⟩
      · intro hv
        by_cases h0 : e = 0
        · simp [cPow, h0] at hv
        · by_cases h1 : 0 < e <;> simp [cPow, h0, h1] at hv
    · simp only [Ext.succ, cPow_pos hb]
      exact ⟨fun _ => ⟨_, rfl⟩, fun h => by cases h⟩
  all_goals exact ⟨fun h => h, fun h => h⟩

theorem startExponent_fin {lb mn : ℝ} (h0 : 0 ≤ mn) (h : mn = 0 ∨ 0 ≤ lb ∧ lb ≠ 1) : ∃ e, startExponent .exact lb mn = .fin e := by
  unfold startExponent
  by_cases hm : mn = 0
  · exact ⟨0, if_pos hm⟩
  · obtain ⟨h1, h2⟩ := h.resolve_left hm
    rw [if_neg hm, if_neg (by rintro (h | h) <;> linarith)]
    by_cases hb : lb = 0
    · exact ⟨0, if_pos hb⟩
    · rw [if_neg hb, if_neg h2]
      exact ⟨_, rfl⟩

theorem exp_ends (toS : ℝ → Str) (nan : Str) (s : Scale) (fmt : Formatter) (base e : ℝ) (hb : 1 < base) :
    ∃ r, Returns (expStep .exact toS nan s fmt base) (.fin e, 0, {}) r := by
  have hb0 : (0 : ℝ) < base := by linarith
  have key : ∀ (n : Nat) (e : ℝ) (idx : Nat) (l : ScaleLayout), scaleMin .exact s ≤ base ^ (e + n) →
      scaleMax .exact s + kEpsilon < base ^ (e + n) →
      ∃ r, Returns (expStep .exact toS nan s fmt base) (.fin e, idx, l) r := by
    intro n
    induction n with
    | zero =>
      intro e idx l h1 h2
      simp only [Nat.cast_zero, add_zero] at h1 h2
      exact ⟨_, Returns.of_done (by simp [expStep, cPow_pos hb0, Ext.below, Ext.above, not_lt.2 h1, h2]; rfl)⟩
    | succ n ih =>
      intro e idx l h1 h2
      have e1 : e + ((n + 1 : ℕ) : ℝ) = (e + 1) + n := by push_cast; ring
      rw [e1] at h1 h2
      by_cases c1 : base ^ e < scaleMin .exact s
      · obtain ⟨r, hr⟩ := ih (e + 1) idx l h1 h2
        exact ⟨r, (Returns.of_step (by simp [expStep, cPow_pos hb0, Ext.below, Ext.succ, c1])).2 hr⟩
      · by_cases c2 : base ^ e > scaleMax .exact s + kEpsilon
        · exact ⟨_, Returns.of_done (by simp [expStep, cPow_pos hb0, Ext.below, Ext.above, c1, c2]; rfl)⟩
        · obtain ⟨r, hr⟩ := ih (e + 1) (idx + 1)
            (l.push (scaleTranslate .exact s (base ^ e)) (fmt idx (toS (base ^ e)))) h1 h2
          exact ⟨r, (Returns.of_step (by
            simp [expStep, cPow_pos hb0, Ext.below, Ext.above, Ext.succ, Ext.finite?, c1, c2])).2 hr⟩
  have hpe : 0 < base ^ e := Real.rpow_pos_of_pos hb0 e
  obtain ⟨n, hn⟩ := pow_unbounded_of_one_lt
    (max (scaleMin .exact s) (scaleMax .exact s + kEpsilon) / base ^ e) hb
  rw [div_lt_iff₀ hpe] at hn
  have hpow : base ^ (e + n) = base ^ n * base ^ e := by
    rw [Real.rpow_add hb0, Real.rpow_natCast, mul_comm]
  apply key n
  · rw [hpow]; exact (le_max_left _ _).trans hn.le
  · rw [hpow]; exact (le_max_right _ _).trans_lt hn

/-- An exponent that stays the same whose power is not above the limit keeps the loop running. -/
theorem exp_stuck (toS : ℝ → Str) (nan : Str) (s : Scale) (fmt : Formatter) (base : ℝ) (e : Ext)
    (he : cPow .exact base (e.succ .exact) = cPow .exact base e) (hs : ∀ x, e = .fin x → base = 1)
    (h : (cPow .exact base e).below (scaleMin .exact s) ∨ ¬ (cPow .exact base e).above (scaleMax .exact s + kEpsilon)) (idx : Nat)
    (l : ScaleLayout) (r : ScaleLayout × LayoutRc) : ¬ Returns (expStep .exact toS nan s fmt base) (e, idx, l) r := by
  apply Diverges.not_returns
  apply Diverges.of_invariant
    (fun st : Ext × Nat × ScaleLayout => (st.1 = e ∨ base = 1) ∧ cPow .exact base st.1 = cPow .exact base e)
  · rintro ⟨e', idx, l⟩ ⟨h1, h2⟩
    dsimp only at h1 h2
    have hnext : ((e'.succ .exact) = e ∨ base = 1) ∧ cPow .exact base (e'.succ .exact) = cPow .exact base e := by
      rcases h1 with rfl | rfl
      · refine ⟨?_, he⟩
        rcases e' with x | _ | _ | _
        · exact .inr (hs x rfl)
        all_goals exact .inl rfl
      · refine ⟨.inr rfl, ?_⟩
        rw [← h2]
        rcases e' with x | _ | _ | _
        · simp [Ext.succ, cPow]
        all_goals rfl
    by_cases c1 : (cPow .exact base e').below (scaleMin .exact s)
    · exact ⟨((e'.succ .exact), idx, l), by simp [expStep, c1], hnext⟩
    · rw [h2] at c1
      have c2 := h.resolve_left c1
      rw [← h2] at c1 c2
      have hstep : ∃ l', expStep .exact toS nan s fmt base (e', idx, l) = .inl ((e'.succ .exact), idx + 1, l') :=
        ⟨_, (if_neg c1).trans (if_neg c2)⟩
      obtain ⟨l', hl'⟩ := hstep
      exact ⟨_, hl', hnext⟩
  · exact ⟨.inl rfl, rfl⟩

/-- C25: the `exponential` layout with a base above one ends exactly if the lower limit of the scale is zero, or
positive and the base of the scale is neither negative nor one — or if the base of the scale is one and the lower limit
is above one. -/
theorem C25_exponential_terminates (toS : ℝ → Str) (nan : Str) (s : Scale) (fmt : Formatter) (base : ℝ) (hb : 1 < base) :
    (∃ r, LayoutExponential .exact toS nan s fmt {} base r) ↔
      scaleMin .exact s = 0 ∨
      0 < scaleMin .exact s ∧ (0 ≤ s.logBase ∧ s.logBase ≠ 1 ∨ s.logBase = 1 ∧ 1 < scaleMin .exact s) := by
  have hb0 : (0 : ℝ) < base := by linarith
  have habs : |base| = base := abs_of_pos hb0
  unfold LayoutExponential
  constructor
  · rintro ⟨r, hr⟩
    by_contra hcon
    push Not at hcon
    obtain ⟨h0, h1⟩ := hcon
    rcases lt_or_gt_of_ne h0 with hneg | hpos
    · have : startExponent .exact s.logBase (scaleMin .exact s) = .nan := by
        unfold startExponent; rw [if_neg h0, if_pos (.inl hneg)]
      rw [this] at hr
      refine exp_stuck toS nan s fmt base .nan rfl (fun x h => by cases h) (.inr ?_) 0 {} r hr
      simp [cPow, hb.ne', Ext.above]
    · obtain ⟨h2, h3⟩ := h1 hpos
      by_cases hl : s.logBase < 0
      · have : startExponent .exact s.logBase (scaleMin .exact s) = .nan := by
          unfold startExponent; rw [if_neg h0, if_pos (.inr hl)]
        rw [this] at hr
        refine exp_stuck toS nan s fmt base .nan rfl (fun x h => by cases h) (.inr ?_) 0 {} r hr
        simp [cPow, hb.ne', Ext.above]
      · have hl1 := h2 (not_lt.1 hl)
        have hm := h3 hl1
        rcases lt_or_eq_of_le hm with hm | hm
        · have : startExponent .exact s.logBase (scaleMin .exact s) = .negInf := by
            unfold startExponent
            rw [if_neg h0, if_neg (by rintro (h | h) <;> linarith), if_neg (by linarith), if_pos hl1,
              if_neg (by linarith), if_pos hm]
          rw [this] at hr
          refine exp_stuck toS nan s fmt base .negInf rfl (fun x h => by cases h) (.inl ?_) 0 {} r hr
          simp only [cPow, habs]
          rw [if_neg hb.ne', if_neg (by linarith)]
          exact hpos
        · have : startExponent .exact s.logBase (scaleMin .exact s) = .nan := by
            unfold startExponent
            rw [if_neg h0, if_neg (by rintro (h | h) <;> linarith), if_neg (by linarith), if_pos hl1,
              if_neg (by linarith), if_neg (by linarith)]
          rw [this] at hr
          refine exp_stuck toS nan s fmt base .nan rfl (fun x h => by cases h) (.inr ?_) 0 {} r hr
          simp [cPow, hb.ne', Ext.above]
  · rintro (h | ⟨h0, ⟨h1, h2⟩ | ⟨h1, h2⟩⟩)
    · obtain ⟨e, he⟩ := startExponent_fin (lb := s.logBase) h.ge (.inl h)
      rw [he]; exact exp_ends toS nan s fmt base e hb
    · obtain ⟨e, he⟩ := startExponent_fin h0.le (.inr ⟨h1, h2⟩)
      rw [he]; exact exp_ends toS nan s fmt base e hb
    · have : startExponent .exact s.logBase (scaleMin .exact s) = .posInf := by
        unfold startExponent
        rw [if_neg h0.ne', if_neg (by rintro (h | h) <;> linarith), if_neg (by linarith), if_pos h1, if_pos h2]
      rw [this]
      refine ⟨({}, .ok), Returns.of_done ?_⟩
      simp [expStep, cPow, habs, hb.ne', not_lt.2 hb.le, Ext.below, Ext.above]

example : ∃ s : Scale, 0 < scaleMin .exact s ∧ 0 ≤ s.logBase ∧ s.logBase ≠ 1 :=
  ⟨{ exScale 1 10 with logBase := 10 }, by norm_num [scaleMin, exScale], by norm_num, by norm_num⟩

/-- C25 (violated by the code): with a base of one the `exponential` layout never ends if the upper limit is at least
one; with a base below one, it never ends if its first value `base ^ log(min)` is not above the upper limit; with a
negative lower limit it never ends, except for the base one. -/
theorem C25_exponential_diverges (toS : ℝ → Str) (nan : Str) (s : Scale) (fmt : Formatter) :
    (1 ≤ scaleMax .exact s → ∀ r, ¬ LayoutExponential .exact toS nan s fmt {} 1 r) ∧
    (∀ base, 0 < base → base < 1 → 0 < scaleMin .exact s → 1 < s.logBase →
      base ^ (Real.log (scaleMin .exact s) / Real.log s.logBase) ≤ scaleMax .exact s →
      ∀ r, ¬ LayoutExponential .exact toS nan s fmt {} base r) ∧
    (∀ base, base ≠ 1 → scaleMin .exact s < 0 → ∀ r, ¬ LayoutExponential .exact toS nan s fmt {} base r) := by
  have hk : (0 : ℝ) < kEpsilon := by unfold kEpsilon; norm_num
  refine ⟨?_, ?_, ?_⟩
  · intro h r hr
    have h1 : ∀ e, cPow .exact 1 e = .fin 1 := by rintro (e | _ | _ | _) <;> simp [cPow]
    refine exp_stuck toS nan s fmt 1 _ (by rw [h1, h1]) (fun _ _ => rfl) (.inr ?_) 0 {} r hr
    rw [h1]
    simp only [Ext.above]
    linarith
  · intro base hb0 hb1 h0 hl hle r hr
    have he : startExponent .exact s.logBase (scaleMin .exact s) = .fin (Real.log (scaleMin .exact s) / Real.log s.logBase) := by
      unfold startExponent
      rw [if_neg h0.ne', if_neg (by rintro (h | h) <;> linarith), if_neg (by linarith), if_neg (by linarith)]
      rfl
    unfold LayoutExponential at hr
    rw [he] at hr
    refine Diverges.not_returns (Diverges.of_invariant
      (fun st : Ext × Nat × ScaleLayout => ∃ e', st.1 = .fin e' ∧ base ^ e' ≤ scaleMax .exact s + kEpsilon) ?_
      ⟨_, rfl, by linarith⟩) hr
    rintro ⟨e', idx, l⟩ ⟨x, hx', hx⟩
    dsimp only at hx'
    subst hx'
    have hstep : base ^ (x + 1) ≤ scaleMax .exact s + kEpsilon :=
      (Real.rpow_le_rpow_of_exponent_ge hb0 hb1.le (by linarith)).trans hx
    by_cases c1 : base ^ x < scaleMin .exact s
    · exact ⟨(.fin (x + 1), idx, l), by simp [expStep, cPow_pos hb0, Ext.below, Ext.succ, c1], x + 1, rfl, hstep⟩
    · exact ⟨(.fin (x + 1), idx + 1, l.push (scaleTranslate .exact s (base ^ x)) (fmt idx (toS (base ^ x)))),
        by simp [expStep, cPow_pos hb0, Ext.below, Ext.above, Ext.succ, Ext.finite?, c1, not_lt.2 hx], x + 1, rfl, hstep⟩
  · intro base hb h0 r hr
    have : startExponent .exact s.logBase (scaleMin .exact s) = .nan := by
      unfold startExponent; rw [if_neg h0.ne, if_pos (.inl h0)]
    unfold LayoutExponential at hr
    rw [this] at hr
    refine exp_stuck toS nan s fmt base .nan rfl (fun x h => by cases h) (.inr ?_) 0 {} r hr
    simp [cPow, hb, Ext.above]

example : ∃ s : Scale, 0 < scaleMin .exact s ∧ 1 < s.logBase ∧
    (1 / 2 : ℝ) ^ (Real.log (scaleMin .exact s) / Real.log s.logBase) ≤ scaleMax .exact s :=
  ⟨{ exScale 1 10 with logBase := 10 }, by norm_num [scaleMin, exScale], by norm_num,
    by norm_num [scaleMin, scaleMax, exScale]⟩

theorem exp_loop (toS : ℝ → Str) (nan : Str) (s : Scale) (fmt : Formatter) (base : ℝ) (hb : 0 < base) :
    ∀ (n : Nat) (e : ℝ) (idx : Nat) (l : ScaleLayout),
    (∀ k < n, scaleMin .exact s ≤ base ^ (e + (k : ℝ)) ∧ base ^ (e + (k : ℝ)) ≤ scaleMax .exact s + kEpsilon) →
    scaleMin .exact s ≤ base ^ (e + (n : ℝ)) → scaleMax .exact s + kEpsilon < base ^ (e + (n : ℝ)) →
    Returns (expStep .exact toS nan s fmt base) (.fin e, idx, l)
      (pushTicks (scaleTranslate .exact s) (fun i v => fmt i (toS v)) l idx
        ((List.range n).map fun k : ℕ => base ^ (e + (k : ℝ))), .ok)
  | 0, e, idx, l, _, h1, h2 => by
    simp only [Nat.cast_zero, add_zero] at h1 h2
    apply Returns.of_done
    simp [expStep, cPow_pos hb, Ext.below, Ext.above, not_lt.2 h1, h2, pushTicks_nil]
  | n + 1, e, idx, l, hk, h1, h2 => by
    have h0 := hk 0 (by omega)
    simp only [Nat.cast_zero, add_zero] at h0
    have hs : expStep .exact toS nan s fmt base (.fin e, idx, l) =
        .inl (.fin (e + 1), idx + 1, l.push (scaleTranslate .exact s (base ^ e)) (fmt idx (toS (base ^ e)))) := by
      simp [expStep, cPow_pos hb, Ext.below, Ext.above, Ext.succ, Ext.finite?, not_lt.2 h0.1, not_lt.2 h0.2]
    have e1 : ∀ k : ℕ, e + ((k + 1 : ℕ) : ℝ) = (e + 1) + k := by intro k; push_cast; ring
    rw [Returns.of_step hs, List.range_succ_eq_map, List.map_cons, List.map_map]
    have e2 : ((fun k : ℕ => base ^ (e + (k : ℝ))) ∘ Nat.succ) = fun k : ℕ => base ^ ((e + 1) + (k : ℝ)) := by
      funext k; simp only [Function.comp_apply, Nat.succ_eq_add_one, e1]
    rw [e2]
    simp only [Nat.cast_zero, add_zero]
    rw [pushTicks_cons]
    apply exp_loop _ _ _ _ _ hb
    · intro k hk'
      have := hk (k + 1) (by omega)
      rwa [e1] at this
    · rw [← e1]; exact h1
    · rw [← e1]; exact h2

theorem kEpsilon_eq : kEpsilon = 1 / 1000 := by unfold kEpsilon; norm_num

theorem startExponent_pos {lb mn base : ℝ} (hb : 1 < base) (hbase : lb = base) (h0 : 0 < mn) :
    startExponent .exact lb mn = .fin (Real.log mn / Real.log base) := by
  subst hbase
  unfold startExponent
  rw [if_neg h0.ne', if_neg (by rintro (h | h) <;> linarith), if_neg (by linarith), if_neg (by linarith)]
  rfl

theorem exponential_eps (toS : ℝ → Str) (nan : Str) (s : Scale) (fmt : Formatter) (base : ℝ) (hb : 1 < base)
    (hbase : s.logBase = base) (h0 : 0 < scaleMin .exact s) (hle : scaleMin .exact s ≤ scaleMax .exact s) :
    ∃ n out, LayoutExponential .exact toS nan s fmt {} base (out, .ok) ∧
      TicksAt toS fmt (scaleTranslate .exact s) ((List.range n).map fun k : ℕ => scaleMin .exact s * base ^ k) out ∧
      (∀ k : ℕ, k < n ↔ scaleMin .exact s * base ^ k ≤ scaleMax .exact s + kEpsilon) := by
  have hb0 : (0 : ℝ) < base := by linarith
  have hlb : 0 < Real.log base := Real.log_pos hb
  have he := startExponent_pos hb hbase h0
  have hstart : base ^ (Real.log (scaleMin .exact s) / Real.log base) = scaleMin .exact s := by
    rw [Real.rpow_def_of_pos hb0, mul_div_cancel₀ _ hlb.ne', Real.exp_log h0]
  have hpow : ∀ k : ℕ, base ^ (Real.log (scaleMin .exact s) / Real.log base + (k : ℝ)) =
      scaleMin .exact s * base ^ k := by
    intro k; rw [Real.rpow_add hb0, hstart, Real.rpow_natCast]
  have hmono : ∀ j k : ℕ, j ≤ k → scaleMin .exact s * base ^ j ≤ scaleMin .exact s * base ^ k := by
    intro j k h
    exact mul_le_mul_of_nonneg_left (pow_le_pow_right₀ hb.le h) h0.le
  have hex : ∃ n : ℕ, scaleMax .exact s + kEpsilon < scaleMin .exact s * base ^ n := by
    obtain ⟨n, hn⟩ := pow_unbounded_of_one_lt ((scaleMax .exact s + kEpsilon) / scaleMin .exact s) hb
    rw [div_lt_iff₀ h0] at hn
    exact ⟨n, by linarith⟩
  classical
  refine ⟨Nat.find hex, _, ?_, pushTicks_ticksAt _ _ _ _, ?_⟩
  · unfold LayoutExponential
    rw [he]
    have := exp_loop toS nan s fmt base hb0 (Nat.find hex) (Real.log (scaleMin .exact s) / Real.log base) 0 {} ?_ ?_ ?_
    · simpa only [hpow] using this
    · intro k hk
      rw [hpow]
      refine ⟨?_, not_lt.1 (Nat.find_min hex hk)⟩
      simpa using hmono 0 k (Nat.zero_le k)
    · rw [hpow]; simpa using hmono 0 (Nat.find hex) (Nat.zero_le _)
    · rw [hpow]; exact Nat.find_spec hex
  · intro k
    constructor
    · intro hk; exact not_lt.1 (Nat.find_min hex hk)
    · intro hk
      by_contra hcon
      have := hmono _ _ (not_lt.1 hcon)
      have := Nat.find_spec hex
      linarith

/-- C24: the `exponential` layout in the base of the scale has its ticks at `min * base^k` up to `max + 0.001`; the
number of ticks is not limited. -/
theorem C24_exponential (toS : ℝ → Str) (nan : Str) (s : Scale) (fmt : Formatter) (base : ℝ) (hb : 1 < base)
    (hbase : s.logBase = base) (h0 : 0 < scaleMin .exact s) (hle : scaleMin .exact s ≤ scaleMax .exact s) :
    ∃ n out, LayoutExponential .exact toS nan s fmt {} base (out, .ok) ∧
      TicksAt toS fmt (scaleTranslate .exact s) ((List.range n).map fun k : ℕ => scaleMin .exact s * base ^ k) out ∧
      (∀ k : ℕ, k < n ↔ scaleMin .exact s * base ^ k ≤ scaleMax .exact s + 1 / 1000) := by
  have h := exponential_eps toS nan s fmt base hb hbase h0 hle
  rwa [kEpsilon_eq] at h

/-- C24 (violated by the code): the first exponent is a quotient of rounded logarithms.  If the power with the rounded
exponent falls below the minimum, there is no tick at the minimum; if the next power is above the maximum, there is no
tick at all, although the minimum itself is one.  (With doubles, `log(1000) / log(10)` is 2.9999999999999996, and
`pow(10, 2.9999999999999996)` is 999.9999999999991: a logarithmic axis from 1000 to 9000 has no ticks.) -/
theorem C24_exponential_rounding (a : Arith) (ha : a.Good) (toS : ℝ → Str) (nan : Str) (s : Scale) (fmt : Formatter)
    (hb : 1 < s.logBase) (h0 : 0 < scaleMin a s) (e0 e1 : ℝ)
    (he0 : e0 = a.d (a.d (Real.log (scaleMin a s)) / a.d (Real.log s.logBase))) (he1 : e1 = a.d (e0 + 1))
    (h1 : a.d (s.logBase ^ e0) < scaleMin a s) (h2 : scaleMin a s ≤ a.d (s.logBase ^ e1))
    (h3 : a.d (scaleMax a s + 1 / 1000) < a.d (s.logBase ^ e1)) :
    LayoutExponential a toS nan s fmt {} s.logBase ({}, .ok) := by
  have hb0 : 0 < s.logBase := by linarith
  have hp : ∀ e : ℝ, cPow a s.logBase (.fin e) = .fin (a.d (s.logBase ^ e)) := by
    intro e
    unfold cPow
    dsimp only
    split
    · rename_i h
      rcases h with h | rfl
      · exact absurd h hb.ne'
      · rw [Real.rpow_zero, ha.one]
    · rfl
  have hs : startExponent a s.logBase (scaleMin a s) = .fin e0 := by
    unfold startExponent
    rw [if_neg h0.ne', if_neg (by rintro (h | h) <;> linarith), if_neg (by linarith), if_neg (by linarith), he0]
  unfold LayoutExponential
  rw [hs]
  have step1 : expStep a toS nan s fmt s.logBase (.fin e0, 0, {}) = .inl (.fin e1, 0, {}) := by
    simp [expStep, hp, Ext.below, Ext.succ, h1, he1]
  rw [Returns.of_step step1]
  apply Returns.of_done
  rw [← kEpsilon_eq] at h3
  simp [expStep, hp, Ext.below, Ext.above, not_lt.2 h2, h3]

/-- A domain from 8 to 12 in base 2 with numbers rounded to quarters: the first power is below 8, the next above 12. -/
example : let a := quarters; let s : Scale := { kind := .logarithmic, min := some 8, max := some 12, logBase := 2 }
    ∃ e0 e1, e0 = a.d (a.d (Real.log (scaleMin a s)) / a.d (Real.log s.logBase)) ∧ e1 = a.d (e0 + 1) ∧
      a.d (s.logBase ^ e0) < scaleMin a s ∧ scaleMin a s ≤ a.d (s.logBase ^ e1) ∧
      a.d (scaleMax a s + 1 / 1000) < a.d (s.logBase ^ e1) := by
  have e1 : quarters.d (11 / 4 + 1) = 15 / 4 := by rw [quarters_eq 15] <;> norm_num
  have p : ∀ n : ℕ, ((2 : ℝ) ^ ((n : ℝ) / 4)) ^ 4 = 2 ^ n := by
    intro n
    rw [← Real.rpow_natCast, ← Real.rpow_mul (by norm_num)]
    rw [← Real.rpow_natCast]
    congr 1
    push_cast
    ring
  have p1 : (2 : ℝ) ^ (11 / 4 : ℝ) < 7 := by
    have := p 11
    push_cast at this
    by_contra h
    have := pow_le_pow_left₀ (by norm_num) (not_lt.1 h) 4
    rw [‹((2 : ℝ) ^ ((11 : ℝ) / 4)) ^ 4 = 2 ^ 11›] at this
    norm_num at this
  have p2 : 13 < (2 : ℝ) ^ (15 / 4 : ℝ) := by
    have := p 15
    push_cast at this
    by_contra h
    have := pow_le_pow_left₀ (by positivity) (not_lt.1 h) 4
    rw [‹((2 : ℝ) ^ ((15 : ℝ) / 4)) ^ 4 = 2 ^ 15›] at this
    norm_num at this
  have q1 : quarters.d ((2 : ℝ) ^ (11 / 4 : ℝ)) ≤ 7 := by
    have := quarters_good.mono p1.le
    rwa [show quarters.d 7 = 7 by rw [quarters_eq 28] <;> norm_num] at this
  have q2 : 13 ≤ quarters.d ((2 : ℝ) ^ (15 / 4 : ℝ)) := by
    have := quarters_good.mono p2.le
    rwa [show quarters.d 13 = 13 by rw [quarters_eq 52] <;> norm_num] at this
  have q3 : quarters.d (12 + 1 / 1000) = 12 := by rw [quarters_eq 48] <;> norm_num
  refine ⟨11 / 4, 15 / 4, ?_, e1.symm, ?_, ?_, ?_⟩
  · exact quarters_exponent.symm
  · exact lt_of_le_of_lt q1 (by norm_num [scaleMin])
  · exact le_trans (by norm_num [scaleMin]) q2
  · show quarters.d (12 + 1 / 1000) < _
    rw [q3]
    exact lt_of_lt_of_le (by norm_num) q2

/-- C25 (violated by the code): the number of ticks of the exponential layout exceeds every bound. -/
theorem C25_exponential_unbounded (toS : ℝ → Str) (nan : Str) (fmt : Formatter) (N : Nat) :
    ∃ s base out, 1 < base ∧ LayoutExponential .exact toS nan s fmt {} base (out, .ok) ∧ N < out.positions.length := by
  let s : Scale := { kind := .logarithmic, min := some 1, max := some (2 ^ N), logBase := 2 }
  have hmin : scaleMin .exact s = 1 := rfl
  have hmax : scaleMax .exact s = 2 ^ N := rfl
  obtain ⟨n, out, h1, h2, h3⟩ := C24_exponential toS nan s fmt 2 (by norm_num) rfl (by rw [hmin]; norm_num)
    (by rw [hmin, hmax]; exact one_le_pow₀ (by norm_num))
  refine ⟨s, 2, out, by norm_num, h1, ?_⟩
  rw [h2.1]
  simp only [List.length_map, List.length_range]
  rw [h3, hmin, hmax, one_mul]
  norm_num

/-- C24 (violated by the code): the tolerance of 0.001 is absolute; on small domains the exponential layout has
ticks far outside the plot (here at 2). -/
theorem C24_exponential_outside (toS : ℝ → Str) (nan : Str) (fmt : Formatter) :
    ∃ s out, s.kind = .logarithmic ∧ s.logBase = 10 ∧ 0 < scaleMin .exact s ∧
      scaleMin .exact s < scaleMax .exact s ∧ LayoutExponential .exact toS nan s fmt {} 10 (out, .ok) ∧
      some 2 ∈ out.positions := by
  let s : Scale := { kind := .logarithmic, min := some (1 / 100000), max := some (1 / 10000), logBase := 10 }
  have hmin : scaleMin .exact s = 1 / 100000 := rfl
  have hmax : scaleMax .exact s = 1 / 10000 := rfl
  obtain ⟨n, out, h1, h2, h3⟩ := C24_exponential toS nan s fmt 10 (by norm_num) rfl (by rw [hmin]; norm_num)
    (by rw [hmin, hmax]; norm_num)
  refine ⟨s, out, rfl, rfl, by rw [hmin]; norm_num, by rw [hmin, hmax]; norm_num, h1, ?_⟩
  rw [h2.1, List.map_map]
  refine List.mem_map.2 ⟨2, ?_, ?_⟩
  · rw [List.mem_range, h3, hmin, hmax]
    norm_num
  · simp only [Function.comp_apply, hmin]
    have l10 : 0 < Real.log 10 := Real.log_pos (by norm_num)
    have e1 : Real.log (1 / 100000) = -5 * Real.log 10 := by
      rw [show (1 / 100000 : ℝ) = 10 ^ (-5 : ℤ) by norm_num, Real.log_zpow]; push_cast; ring
    have e2 : Real.log (1 / 10000) = -4 * Real.log 10 := by
      rw [show (1 / 10000 : ℝ) = 10 ^ (-4 : ℤ) by norm_num, Real.log_zpow]; push_cast; ring
    have e3 : Real.log (1 / 100000 * 10 ^ 2) = -3 * Real.log 10 := by
      rw [show (1 / 100000 * 10 ^ 2 : ℝ) = 10 ^ (-3 : ℤ) by norm_num, Real.log_zpow]; push_cast; ring
    have hl : ∀ x : ℝ, 0 < x → logIn s.logBase x = some (Real.log x / Real.log 10) := by
      intro x hx
      have : ¬ ((10 : ℝ) ≤ 0 ∨ (10 : ℝ) = 1) := by norm_num
      simp only [logIn, hx.ne', not_lt.2 hx.le, if_false]
      exact if_neg this
    have hv : ¬ ((1 / 100000 * 10 ^ 2 : ℝ) ≤ 0) := by norm_num
    show translateLog .exact s _ = _
    unfold translateLog
    rw [if_neg hv, hmin, hmax, hl _ (by norm_num), hl _ (by norm_num), hl _ (by norm_num), e1, e2, e3]
    simp only [mul_div_assoc, div_self l10.ne']
    norm_num
    rfl

end Clip
