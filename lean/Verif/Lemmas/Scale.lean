import Verif.Model.Scale
import Mathlib.Tactic.Linarith
import Mathlib.Tactic.FieldSimp
import Mathlib.Tactic.Positivity
import Mathlib.Tactic.Ring
import Mathlib.Tactic.NormNum
import Mathlib.Tactic.Push
import Mathlib.Tactic.ByContra
/-!
# Lemmas about scales
-/
set_option linter.unusedSimpArgs false
namespace Clip

theorem Arith.exact_good : Arith.exact.Good := ⟨monotone_id, rfl, rfl, fun _ => rfl⟩

@[simp] theorem Arith.exact_d (x : ℝ) : Arith.exact.d x = x := rfl
@[simp] theorem Arith.exact_f (x : ℝ) : Arith.exact.f x = x := rfl

theorem translateLinear_exact (s : Scale) (v : ℝ) (h : scaleMin .exact s < scaleMax .exact s) :
    translateLinear .exact s v = some (if s.inverted then
      1 - (v - scaleMin .exact s) / (scaleMax .exact s - scaleMin .exact s)
      else (v - scaleMin .exact s) / (scaleMax .exact s - scaleMin .exact s)) := by
  have : scaleMax .exact s - scaleMin .exact s ≠ 0 := by linarith
  simp [translateLinear, this]

/-- What the tick loop has done after some ticks. -/
def pushTicks (tr : ℝ → Option ℝ) (lab : Nat → ℝ → Str) (l : ScaleLayout) (idx : Nat) (vs : List ℝ) : ScaleLayout :=
  ⟨l.positions ++ vs.map tr, l.labels ++ vs.mapIdx fun i v => lab (idx + i) v⟩

theorem pushTicks_nil (tr lab l idx) : pushTicks tr lab l idx [] = l := by simp [pushTicks]

theorem pushTicks_cons (tr lab l idx v vs) : pushTicks tr lab l idx (v :: vs) =
    pushTicks tr lab (l.push (tr v) (lab idx v)) (idx + 1) vs := by
  simp [pushTicks, ScaleLayout.push, List.mapIdx_cons]
  congr 1
  funext i v
  congr 1
  omega

/-- The tick values in exact arithmetic. -/
def tickVals (b step : ℝ) (n : Nat) : List ℝ := (List.range n).map fun (k : ℕ) => b + (k : ℝ) * step

theorem tickVals_succ (b step : ℝ) (n : Nat) : tickVals b step (n + 1) = b :: tickVals (b + step) step n := by
  simp [tickVals, List.range_succ_eq_map]
  intro k _
  ring

theorem tick_loop (toS : ℝ → Str) (s : Scale) (fmt : Formatter) (step end_ : ℝ) :
    ∀ (n : Nat) (b : ℝ) (idx : Nat) (l : ScaleLayout), (∀ k < n, b + (k : ℝ) * step ≤ end_) →
    end_ < b + (n : ℝ) * step →
    Returns (tickStep .exact toS s fmt step end_ false) (b, idx, l)
      (pushTicks (scaleTranslate .exact s) (fun i v => fmt i (toS v)) l idx (tickVals b step n), .ok)
  | 0, b, idx, l, _, h2 => by
    apply Returns.of_done
    have : ¬ b ≤ end_ := by simpa using h2
    simp [tickStep, this, tickVals, pushTicks_nil]
  | n + 1, b, idx, l, h1, h2 => by
    have hb : b ≤ end_ := by simpa using h1 0 (by omega)
    have hs : tickStep .exact toS s fmt step end_ false (b, idx, l) =
        .inl (b + step, idx + 1, l.push (scaleTranslate .exact s b) (fmt idx (toS b))) := by
      simp [tickStep, hb]
    rw [Returns.of_step hs, tickVals_succ, pushTicks_cons]
    apply tick_loop
    · intro k hk
      have := h1 (k + 1) (by omega)
      push_cast at this
      linarith
    · push_cast at h2
      linarith

/-- The loop with the test for negative positions. -/
theorem tick_loop_skip (toS : ℝ → Str) (s : Scale) (fmt : Formatter) (step end_ : ℝ) (keep : ℝ → Bool)
    (hk : ∀ v, keep v = !isNegative (scaleTranslate .exact s v)) :
    ∀ (n : Nat) (b : ℝ) (idx : Nat) (l : ScaleLayout), (∀ k < n, b + (k : ℝ) * step ≤ end_) →
    end_ < b + (n : ℝ) * step →
    Returns (tickStep .exact toS s fmt step end_ true) (b, idx, l)
      (pushTicks (scaleTranslate .exact s) (fun i v => fmt i (toS v)) l idx ((tickVals b step n).filter keep), .ok)
  | 0, b, idx, l, _, h2 => by
    apply Returns.of_done
    have : ¬ b ≤ end_ := by simpa using h2
    simp [tickStep, this, tickVals, pushTicks_nil]
  | n + 1, b, idx, l, h1, h2 => by
    have hb : b ≤ end_ := by simpa using h1 0 (by omega)
    have r1 : ∀ k < n, (b + step) + (k : ℝ) * step ≤ end_ := by
      intro k hk
      have := h1 (k + 1) (by omega)
      push_cast at this
      linarith
    have r2 : end_ < (b + step) + (n : ℝ) * step := by
      push_cast at h2
      linarith
    rw [tickVals_succ]
    by_cases hkb : keep b = true
    · have hs : tickStep .exact toS s fmt step end_ true (b, idx, l) =
          .inl (b + step, idx + 1, l.push (scaleTranslate .exact s b) (fmt idx (toS b))) := by
        rw [hk] at hkb
        simp only [tickStep, hb, if_true]
        rw [if_neg]
        · simp
        · simpa using hkb
      rw [Returns.of_step hs, List.filter_cons_of_pos hkb, pushTicks_cons]
      exact tick_loop_skip toS s fmt step end_ keep hk n _ _ _ r1 r2
    · have hs : tickStep .exact toS s fmt step end_ true (b, idx, l) = .inl (b + step, idx, l) := by
        rw [hk] at hkb
        simp only [tickStep, hb, if_true]
        rw [if_pos]
        · simp
        · simpa using hkb
      rw [Returns.of_step hs, List.filter_cons_of_neg (by simpa using hkb)]
      exact tick_loop_skip toS s fmt step end_ keep hk n _ _ _ r1 r2

/-- Number of ticks in `[b, e]`. -/
noncomputable def tickCount (b e step : ℝ) : Nat := if b ≤ e then ⌊(e - b) / step⌋₊ + 1 else 0

theorem tickCount_spec (b e step : ℝ) (hs : 0 < step) :
    (∀ k < tickCount b e step, b + (k : ℝ) * step ≤ e) ∧ e < b + (tickCount b e step : ℝ) * step := by
  unfold tickCount
  split
  · rename_i h
    constructor
    · intro k hk
      have h1 : (k : ℝ) ≤ (⌊(e - b) / step⌋₊ : ℝ) := by exact_mod_cast Nat.lt_succ_iff.1 hk
      have h2 : (⌊(e - b) / step⌋₊ : ℝ) ≤ (e - b) / step := Nat.floor_le (div_nonneg (by linarith) hs.le)
      have h3 : (k : ℝ) ≤ (e - b) / step := h1.trans h2
      rw [le_div_iff₀ hs] at h3
      linarith
    · have := Nat.lt_floor_add_one ((e - b) / step)
      rw [div_lt_iff₀ hs] at this
      push_cast
      linarith
  · rename_i h
    simp
    linarith

end Clip
