import Verif.Props.Ticks
/-!
# C24: ticks of the `exponential` layout with steps (`scale_layout_exponential_steps`)
-/
set_option linter.unusedSimpArgs false
namespace Clip
open ScaleSpec
noncomputable section

/-- Specification: the value of sub-step `p.2` of decade `p.1`: `n` equal parts between `m * base^k` and
`m * base^(k+1)`. -/
def gridValue (m base : ℝ) (n : Nat) (p : Nat × Nat) : ℝ :=
  m * base ^ p.1 + (p.2 : ℝ) / n * (m * base ^ (p.1 + 1) - m * base ^ p.1)

open Classical in
/-- Specification: the sub-steps of the decades that are not above the limit, in order. -/
def grid (m base limit : ℝ) (n N : Nat) : List (Nat × Nat) :=
  ((List.range N).flatMap fun k => (List.range n).map fun sub => (k, sub)).filter
    fun p => gridValue m base n p ≤ limit

open Classical in
theorem subSteps_eq (toS : ℝ → Str) (s : Scale) (fmt : Formatter) (v vn : ℝ) (hv : v ≤ vn) (n : Nat) :
    ∀ (j : Nat) (_ : j ≤ n) (idx : Nat) (l : ScaleLayout),
    let subs := (List.range' (n - j) j).filter fun sub : Nat => decide (v + (sub : ℝ) / n * (vn - v) ≤ scaleMax .exact s + kEpsilon)
    subSteps toS s fmt v vn n j (idx, l) =
      (idx + subs.length,
        ⟨l.positions ++ subs.map (fun sub : Nat => scaleTranslate .exact s (v + (sub : ℝ) / n * (vn - v))),
         l.labels ++ subs.mapIdx (fun i _ => fmt (idx + i) (toS v))⟩) := by
  intro j
  induction j with
  | zero => intro _ idx l; simp [subSteps]
  | succ j ih =>
    intro hj idx l
    have ih := ih (by omega)
    simp only [] at ih ⊢
    rw [subSteps]
    have e : n - (j + 1) + 1 = n - j := by omega
    rw [List.range'_succ, e]
    by_cases h : v + ((n - (j + 1) : ℕ) : ℝ) / n * (vn - v) > scaleMax .exact s + kEpsilon
    · rw [if_pos h, List.filter_cons_of_neg (by simpa using h)]
      have hnil : (List.range' (n - j) j).filter
          (fun sub : Nat => decide (v + (sub : ℝ) / n * (vn - v) ≤ scaleMax .exact s + kEpsilon)) = [] := by
        rw [List.filter_eq_nil_iff]
        intro a ha
        have ha := List.mem_range'_1.1 ha
        have h1 : ((n - (j + 1) : ℕ) : ℝ) ≤ (a : ℝ) := by exact_mod_cast (by omega : n - (j + 1) ≤ a)
        have h2 : ((n - (j + 1) : ℕ) : ℝ) / n ≤ (a : ℝ) / n := div_le_div_of_nonneg_right h1 (by positivity)
        have h3 := mul_le_mul_of_nonneg_right h2 (sub_nonneg.2 hv)
        simp only [decide_eq_true_eq, not_le]
        linarith
      rw [hnil]; simp
    · rw [if_neg h, List.filter_cons_of_pos (by simpa using h), ih]
      simp only [ScaleLayout.push, List.length_cons, List.map_cons, List.mapIdx_cons, List.append_assoc,
        List.singleton_append, List.cons_append, List.nil_append, Nat.add_zero, Prod.mk.injEq]
      refine ⟨by omega, ?_⟩
      congr 4
      funext i _
      rw [show idx + 1 + i = idx + (i + 1) by omega]

theorem flatMap_range_shift {α : Type} (f : Nat → List α) (N : Nat) :
    (List.range (N + 1)).flatMap f = f 0 ++ (List.range N).flatMap fun k => f (k + 1) := by
  rw [List.range_succ_eq_map, List.flatMap_cons, List.flatMap_map]

open Classical in
/-- The sub-steps of one decade that are drawn. -/
def subsOf (m base limit : ℝ) (n k : Nat) : List Nat :=
  (List.range n).filter fun sub : Nat => decide (gridValue m base n (k, sub) ≤ limit)

theorem stepsMinusOne_succ (n : Nat) : stepsMinusOne (n + 1) = n := by
  unfold stepsMinusOne; simp

theorem expStepsStep_stop (toS : ℝ → Str) (s : Scale) (fmt : Formatter) (base e v : ℝ) (hb : 0 < base) (steps idx : Nat)
    (l : ScaleLayout) (hv : base ^ e = v) (h1 : ¬ v < scaleMin .exact s) (h2 : scaleMax .exact s + kEpsilon < v) :
    expStepsStep toS s fmt base steps (.fin e, idx, l) = .inr (l, .ok) := by
  subst hv
  unfold expStepsStep
  dsimp only
  rw [cPow_pos hb, if_neg (show ¬ Ext.below (.fin (base ^ e)) _ from h1), if_pos (show Ext.above (.fin (base ^ e)) _ from h2)]

theorem expStepsStep_go (toS : ℝ → Str) (s : Scale) (fmt : Formatter) (base e v vn : ℝ) (hb : 0 < base)
    (steps n idx idx' : Nat)
    (l l' : ScaleLayout) (hv : base ^ e = v) (hvn : base ^ (e + 1) = vn) (h1 : ¬ v < scaleMin .exact s)
    (h2 : v ≤ scaleMax .exact s + kEpsilon) (hn : stepsMinusOne steps = n)
    (hs : subSteps toS s fmt v vn n n (idx, l) = (idx', l')) :
    expStepsStep toS s fmt base steps (.fin e, idx, l) = .inl (.fin (e + 1), idx' + 1, l') := by
  subst hv hvn hn
  unfold expStepsStep
  dsimp only
  rw [cPow_pos hb, if_neg (show ¬ Ext.below (.fin (base ^ e)) _ from h1), if_neg (show ¬ Ext.above (.fin (base ^ e)) _ from not_lt.2 h2)]
  simp only [Ext.succ, Arith.exact_d, cPow_pos hb, Ext.finite?]
  rw [hs]

theorem exp_steps_same (toS toS' : ℝ → Str) (nan : Str) (s : Scale) (fmt : Formatter) (base : ℝ) (steps : Nat) :
    ∀ (n : Nat) (e : Ext) (i i' : Nat) (l l' : ScaleLayout),
    (runFor (expStepsStep toS s fmt base steps) n (e, i, l)).isSome =
      (runFor (expStep .exact toS' nan s fmt base) n (e, i', l')).isSome := by
  intro n
  induction n with
  | zero => intros; rfl
  | succ n ih =>
    intro e i i' l l'
    unfold runFor
    by_cases c1 : (cPow .exact base e).below (scaleMin .exact s)
    · have h1 : expStepsStep toS s fmt base steps (e, i, l) = .inl ((e.succ .exact), i + 1, l) := if_pos c1
      have h2 : expStep .exact toS' nan s fmt base (e, i', l') = .inl ((e.succ .exact), i', l') := if_pos c1
      rw [h1, h2]
      exact ih _ _ _ _ _
    · by_cases c2 : (cPow .exact base e).above (scaleMax .exact s + kEpsilon)
      · have h1 : expStepsStep toS s fmt base steps (e, i, l) = .inr (l, .ok) := (if_neg c1).trans (if_pos c2)
        have h2 : expStep .exact toS' nan s fmt base (e, i', l') = .inr (l', .ok) := (if_neg c1).trans (if_pos c2)
        rw [h1, h2]
        rfl
      · have h1 : ∃ i2 l2, expStepsStep toS s fmt base steps (e, i, l) = .inl ((e.succ .exact), i2, l2) := by
          unfold expStepsStep
          dsimp only
          rw [if_neg c1, if_neg c2]
          split
          · exact ⟨_, _, rfl⟩
          · exact ⟨_, _, rfl⟩
        have h2 : ∃ i2 l2, expStep .exact toS' nan s fmt base (e, i', l') = .inl ((e.succ .exact), i2, l2) :=
          ⟨_, _, (if_neg c1).trans (if_neg c2)⟩
        obtain ⟨i2, l2, h1⟩ := h1
        obtain ⟨i3, l3, h2⟩ := h2
        rw [h1, h2]
        exact ih _ _ _ _ _

/-- C25: the `exponential` layout with steps ends exactly where the `exponential` layout of the same base ends
(`C25_exponential_terminates`, `C25_exponential_diverges`), whatever the number of steps. -/
theorem C25_exp_steps (toS : ℝ → Str) (nan : Str) (s : Scale) (fmt : Formatter) (base : ℝ) (steps : Nat) :
    (∃ r, LayoutExpSteps toS s fmt {} base steps r) ↔ ∃ r, LayoutExponential .exact toS nan s fmt {} base r := by
  unfold LayoutExpSteps LayoutExponential Returns
  rw [exists_comm, exists_comm (α := ScaleLayout × LayoutRc) (β := Nat)]
  simp only [← Option.isSome_iff_exists]
  exact exists_congr fun n => by rw [exp_steps_same toS toS nan s fmt base steps n _ 0 0 {} {}]

theorem expSteps_loop (toS : ℝ → Str) (s : Scale) (fmt : Formatter) (base m : ℝ) (hb : 1 < base)
    (h0 : 0 < m) (hm : m = scaleMin .exact s) (e0 : ℝ) (hpow : ∀ k : ℕ, base ^ (e0 + (k : ℝ)) = m * base ^ k) (n : Nat)
    (hnn : stepsMinusOne (n + 1) = n) (N : Nat)
    (hN : scaleMax .exact s + kEpsilon < m * base ^ N) :
    ∀ (r k : Nat) (_ : k + r = N) (_ : ∀ k < N, m * base ^ k ≤ scaleMax .exact s + kEpsilon)
      (l : ScaleLayout),
    Returns (expStepsStep toS s fmt base (n + 1)) (.fin (e0 + (k : ℝ)), k * (n + 1), l)
      (⟨l.positions ++ (List.range r).flatMap (fun i => (subsOf m base (scaleMax .exact s + kEpsilon) n (k + i)).map
          fun sub => scaleTranslate .exact s (gridValue m base n (k + i, sub))),
        l.labels ++ (List.range r).flatMap (fun i => (subsOf m base (scaleMax .exact s + kEpsilon) n (k + i)).map
          fun sub => fmt ((k + i) * (n + 1) + sub) (toS (m * base ^ (k + i))))⟩, .ok) := by
  have hmono : ∀ j k : ℕ, j ≤ k → m * base ^ j ≤ m * base ^ k := fun j k h =>
    mul_le_mul_of_nonneg_left (pow_le_pow_right₀ hb.le h) h0.le
  have hmin : ∀ k : ℕ, ¬ m * base ^ k < scaleMin .exact s := by
    intro k; rw [← hm]; simpa using hmono 0 k (Nat.zero_le k)
  intro r
  induction r with
  | zero =>
    intro k hk hle l
    have : k = N := by omega
    subst this
    apply Returns.of_done
    rw [expStepsStep_stop toS s fmt base _ _ (by linarith) _ _ _ (hpow k) (hmin k) hN]
    simp
  | succ r ih =>
    intro k hk hle l
    have hk1 := hle k (by omega)
    have hpow1 : base ^ (e0 + (k : ℝ) + 1) = m * base ^ (k + 1) := by
      have := hpow (k + 1)
      rw [← this]; congr 1; push_cast; ring
    have hstep : expStepsStep toS s fmt base (n + 1) (.fin (e0 + (k : ℝ)), k * (n + 1), l) =
        .inl (.fin (e0 + (k : ℝ) + 1), k * (n + 1) + (subsOf m base (scaleMax .exact s + kEpsilon) n k).length + 1,
        ⟨l.positions ++ (subsOf m base (scaleMax .exact s + kEpsilon) n k).map
            (fun sub => scaleTranslate .exact s (gridValue m base n (k, sub))),
          l.labels ++ (subsOf m base (scaleMax .exact s + kEpsilon) n k).mapIdx
            (fun i _ => fmt (k * (n + 1) + i) (toS (m * base ^ k)))⟩) := by
      apply expStepsStep_go toS s fmt base _ _ _ (by linarith) _ n _ _ _ _ (hpow k) hpow1 (hmin k) hk1 hnn
      have := subSteps_eq toS s fmt (m * base ^ k) (m * base ^ (k + 1)) (hmono _ _ (by omega)) n n (le_refl n) (k * (n + 1)) l
      simp only [Nat.sub_self, ← List.range_eq_range'] at this
      rw [this]
      rfl
    rw [Returns.of_step hstep]
    -- the labels of a decade count its sub-steps
    have hidx : ∀ (f : Nat → Str), (subsOf m base (scaleMax .exact s + kEpsilon) n k).mapIdx (fun i _ => f i) =
        (subsOf m base (scaleMax .exact s + kEpsilon) n k).map f := by
      intro f
      have hpre : ∃ c, subsOf m base (scaleMax .exact s + kEpsilon) n k = List.range c := by
        have hdown : ∀ a b : Nat, a ≤ b → gridValue m base n (k, b) ≤ scaleMax .exact s + kEpsilon →
            gridValue m base n (k, a) ≤ scaleMax .exact s + kEpsilon := by
          intro a b hab hb'
          refine le_trans ?_ hb'
          unfold gridValue
          have h1 : (a : ℝ) / n ≤ (b : ℝ) / n :=
            div_le_div_of_nonneg_right (by exact_mod_cast hab) (by positivity)
          have h3 := mul_le_mul_of_nonneg_right h1 (sub_nonneg.2 (hmono k (k + 1) (by omega)))
          simp only []
          linarith
        unfold subsOf
        clear * - hdown
        induction n with
        | zero => exact ⟨0, by simp⟩
        | succ n _ =>
          generalize hP : (fun sub : Nat => @decide (gridValue m base (n + 1) (k, sub) ≤ scaleMax .exact s + kEpsilon)
            (Classical.propDecidable _)) = P
          have hd : ∀ a b : Nat, a ≤ b → P b = true → P a = true := by
            intro a b hab; rw [← hP]; simpa using hdown a b hab
          clear hP hdown
          generalize n + 1 = j
          induction j with
          | zero => exact ⟨0, by simp⟩
          | succ j ih =>
            rw [List.range_succ, List.filter_append]
            by_cases hj : P j = true
            · refine ⟨j + 1, ?_⟩
              rw [List.range_succ, List.filter_eq_self.2, List.filter_eq_self.2]
              · intro a ha; simp at ha; rw [ha]; exact hj
              · intro a ha; exact hd a j (by simpa using (List.mem_range.1 ha).le) hj
            · obtain ⟨c, hc⟩ := ih
              exact ⟨c, by rw [hc]; simp [hj]⟩
      obtain ⟨c, hc⟩ := hpre
      rw [hc]
      apply List.ext_getElem
      · simp
      · intro i h1 h2; simp
    rw [hidx]
    by_cases hlast : r = 0
    · subst hlast
      have hkN : k + 1 = N := by omega
      apply Returns.of_done
      have hpow2 : base ^ (e0 + (k : ℝ) + 1) = m * base ^ N := by rw [hpow1, hkN]
      rw [expStepsStep_stop toS s fmt base _ _ (by linarith) _ _ _ hpow2 (hmin N) hN]
      simp
    · have hfull : subsOf m base (scaleMax .exact s + kEpsilon) n k = List.range n := by
        unfold subsOf
        rw [List.filter_eq_self]
        intro a ha
        have ha := List.mem_range.1 ha
        have hnext := hle (k + 1) (by omega)
        simp only [decide_eq_true_eq]
        refine le_trans ?_ hnext
        unfold gridValue
        have h1 : (a : ℝ) / n ≤ 1 := by
          rw [div_le_one (by exact_mod_cast (by omega : 0 < n))]; exact_mod_cast ha.le
        have h3 := mul_le_mul_of_nonneg_right h1 (sub_nonneg.2 (hmono k (k + 1) (by omega)))
        simp only [one_mul] at h3 ⊢
        linarith
      have hlen : k * (n + 1) + (subsOf m base (scaleMax .exact s + kEpsilon) n k).length + 1 = (k + 1) * (n + 1) := by
        rw [hfull, List.length_range]; ring
      rw [hlen]
      have he : e0 + (k : ℝ) + 1 = e0 + ((k + 1 : ℕ) : ℝ) := by push_cast; ring
      rw [he]
      have := ih (k + 1) (by omega) hle
        ⟨l.positions ++ (subsOf m base (scaleMax .exact s + kEpsilon) n k).map
            (fun sub => scaleTranslate .exact s (gridValue m base n (k, sub))),
          l.labels ++ (subsOf m base (scaleMax .exact s + kEpsilon) n k).map
            (fun i => fmt (k * (n + 1) + i) (toS (m * base ^ k)))⟩
      rw [flatMap_range_shift, flatMap_range_shift]
      simp only [List.append_assoc] at this
      have hc : ∀ i, k + 1 + i = k + (i + 1) := by intro i; omega
      simp only [hc] at this
      simpa using this

theorem filter_flatMap_map {α β : Type} (p : β → Bool) (ks : List α) (js : List Nat) (g : α → Nat → β) :
    (ks.flatMap fun k => js.map (g k)).filter p = ks.flatMap fun k => (js.filter fun j => p (g k j)).map (g k) := by
  induction ks with
  | nil => rfl
  | cons k ks ih =>
    rw [List.flatMap_cons, List.flatMap_cons, List.filter_append, ih, List.filter_map]
    rfl

theorem exp_steps_eps (toS : ℝ → Str) (s : Scale) (fmt : Formatter) (base : ℝ) (hb : 1 < base)
    (hbase : s.logBase = base) (h0 : 0 < scaleMin .exact s) (n : Nat) :
    ∃ N out, LayoutExpSteps toS s fmt {} base (n + 1) (out, .ok) ∧
      (∀ k : ℕ, k < N ↔ scaleMin .exact s * base ^ k ≤ scaleMax .exact s + kEpsilon) ∧
      out.positions = (grid (scaleMin .exact s) base (scaleMax .exact s + kEpsilon) n N).map
        (fun p => scaleTranslate .exact s (gridValue (scaleMin .exact s) base n p)) ∧
      out.labels = (grid (scaleMin .exact s) base (scaleMax .exact s + kEpsilon) n N).map
        (fun p => fmt (p.1 * (n + 1) + p.2) (toS (scaleMin .exact s * base ^ p.1))) := by
  have hb0 : (0 : ℝ) < base := by linarith
  have hlb : 0 < Real.log base := Real.log_pos hb
  have he := startExponent_pos hb hbase h0
  have hstart : base ^ (Real.log (scaleMin .exact s) / Real.log base) = scaleMin .exact s := by
    rw [Real.rpow_def_of_pos hb0, mul_div_cancel₀ _ hlb.ne', Real.exp_log h0]
  have hpow : ∀ k : ℕ, base ^ (Real.log (scaleMin .exact s) / Real.log base + (k : ℝ)) =
      scaleMin .exact s * base ^ k := by
    intro k; rw [Real.rpow_add hb0, hstart, Real.rpow_natCast]
  have hmono : ∀ j k : ℕ, j ≤ k → scaleMin .exact s * base ^ j ≤ scaleMin .exact s * base ^ k := by
    intro j k h
    exact mul_le_mul_of_nonneg_left (pow_le_pow_right₀ hb.le h) h0.le
  have hex : ∃ n : ℕ, scaleMax .exact s + kEpsilon < scaleMin .exact s * base ^ n := by
    obtain ⟨n, hn⟩ := pow_unbounded_of_one_lt ((scaleMax .exact s + kEpsilon) / scaleMin .exact s) hb
    rw [div_lt_iff₀ h0] at hn
    exact ⟨n, by linarith⟩
  classical
  have hloop := expSteps_loop toS s fmt base (scaleMin .exact s) hb h0 rfl _ hpow n (stepsMinusOne_succ n) (Nat.find hex)
    (Nat.find_spec hex) (Nat.find hex) 0 (by omega) (fun k hk => not_lt.1 (Nat.find_min hex hk)) {}
  simp only [Nat.cast_zero, add_zero, Nat.zero_mul, Nat.zero_add] at hloop
  refine ⟨Nat.find hex, _, by unfold LayoutExpSteps; rw [he]; exact hloop, ?_, ?_, ?_⟩
  · intro k
    constructor
    · intro hk; exact not_lt.1 (Nat.find_min hex hk)
    · intro hk
      by_contra hcon
      have := hmono _ _ (not_lt.1 hcon)
      have := Nat.find_spec hex
      linarith
  · unfold grid
    rw [filter_flatMap_map, List.map_flatMap]
    simp only [List.map_map, List.nil_append]
    rfl
  · unfold grid
    rw [filter_flatMap_map, List.map_flatMap]
    simp only [List.map_map, List.nil_append]
    rfl

/-- C24: the ticks of the `exponential` layout with `n + 1` steps, in the base of the scale: `n` equal parts of every
decade `min * base^k .. min * base^(k+1)`, up to `max + 0.001`.  The layout ends.  (The labels are not those of the tick
values, see `C24_exp_steps_labels`.) -/
theorem C24_exp_steps (toS : ℝ → Str) (s : Scale) (fmt : Formatter) (base : ℝ) (hb : 1 < base)
    (hbase : s.logBase = base) (h0 : 0 < scaleMin .exact s) (n : Nat) :
    ∃ N out, LayoutExpSteps toS s fmt {} base (n + 1) (out, .ok) ∧
      (∀ k : ℕ, k < N ↔ scaleMin .exact s * base ^ k ≤ scaleMax .exact s + 1 / 1000) ∧
      out.positions = (grid (scaleMin .exact s) base (scaleMax .exact s + 1 / 1000) n N).map
        (fun p => scaleTranslate .exact s (gridValue (scaleMin .exact s) base n p)) ∧
      out.labels = (grid (scaleMin .exact s) base (scaleMax .exact s + 1 / 1000) n N).map
        (fun p => fmt (p.1 * (n + 1) + p.2) (toS (scaleMin .exact s * base ^ p.1))) := by
  have h := exp_steps_eps toS s fmt base hb hbase h0 n
  rwa [kEpsilon_eq] at h

/-- C24 (violated by the code): all ticks of a decade are labelled with the value at which the decade starts: here the
tick at 5.5 between 1 and 10 has the label of 1. -/
theorem C24_exp_steps_labels (toS : ℝ → Str) (fmt : Formatter) :
    ∃ s out, s.logBase = 10 ∧ LayoutExpSteps toS s fmt {} 10 3 (out, .ok) ∧
      out.positions[1]? = some (scaleTranslate .exact s 5.5) ∧ out.labels[1]? = some (fmt 1 (toS 1)) := by
  let s : Scale := { kind := .logarithmic, min := some 1, max := some 9, logBase := 10 }
  have hmin : scaleMin .exact s = 1 := rfl
  have hmax : scaleMax .exact s = 9 := rfl
  obtain ⟨N, out, h1, h2, h3, h4⟩ := C24_exp_steps toS s fmt 10 (by norm_num) rfl (by rw [hmin]; norm_num) 2
  refine ⟨s, out, rfl, h1, ?_⟩
  have hN : N = 1 := by
    have a := (h2 0).2 (by rw [hmin, hmax]; norm_num)
    have b := mt (h2 1).1 (by rw [hmin, hmax]; norm_num)
    omega
  have hg : grid 1 10 (9 + 1 / 1000) 2 1 = [(0, 0), (0, 1)] := by
    unfold grid
    have : (List.range 1).flatMap (fun k => (List.range 2).map fun sub => (k, sub)) = [(0, 0), (0, 1)] := by decide
    rw [this, List.filter_eq_self.2]
    intro p hp
    simp only [List.mem_cons, List.not_mem_nil, or_false] at hp
    rcases hp with rfl | rfl <;> norm_num [gridValue]
  rw [hmin, hmax, hN, hg] at h3 h4
  rw [h3, h4]
  refine ⟨?_, ?_⟩
  · simp only [List.map_cons, List.map_nil, List.getElem?_cons_succ, List.getElem?_cons_zero, Option.some.injEq]
    congr 1
    norm_num [gridValue]
  · simp

end
end Clip
