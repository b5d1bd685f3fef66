import Verif.Spec.Plot
import Verif.Spec.Data
import Verif.Lemmas.Data
/-!
Helper lemmas about plots.
-/
set_option linter.unusedSimpArgs false
namespace Clip
open PlotSpec DataSpec

theorem mapM_some_of {α β : Type} (f : α → Option β) (g : α → β) (l : List α) (h : ∀ a ∈ l, f a = some (g a)) :
    l.mapM f = some (l.map g) := by
  induction l with
  | nil => rfl
  | cons a l ih =>
    simp [List.mapM_cons, h a (by simp), ih (fun b hb => h b (by simp [hb]))]

theorem mapM_none_of {α β : Type} (f : α → Option β) (l : List α) (a : α) (ha : a ∈ l) (h : f a = none) :
    l.mapM f = none := by
  induction l with
  | nil => simp at ha
  | cons b l ih =>
    rw [List.mapM_cons]
    rcases List.mem_cons.1 ha with rfl | hm
    · simp [h]
    · cases hb : f b with
      | none => rfl
      | some v => simp [ih hm]

theorem range_map_get {α β : Type} (l : List α) (f : Nat → β) (g : Nat → α → β)
    (h : ∀ i (hi : i < l.length), f i = g i l[i]) : (List.range l.length).map f = l.mapIdx g := by
  apply List.ext_getElem
  · simp
  · intro i h1 h2
    simp at h1
    simp [h i h1]

/-- The piece of a list between two positions, by index. -/
theorem range'_map_get {α β : Type} (l : List α) (b e : Nat) (he : e ≤ l.length) (f : Nat → β) (g : Nat → α → β)
    (h : ∀ i (hi : i < l.length), f i = g (i - b) l[i]) :
    (List.range' b (e - b)).map f = ((l.take e).drop b).mapIdx g := by
  apply List.ext_getElem
  · simp; omega
  · intro i h1 h2
    simp at h1
    have hi : b + i < l.length := by omega
    simp [h (b + i) hi]

theorem polyline_mapIdx (l : List Vec2) :
    l.mapIdx (fun i v => if i = 0 then PathCmd.moveTo v.x v.y else PathCmd.lineTo v.x v.y) = polyline l := by
  cases l with
  | nil => rfl
  | cons v l =>
    simp only [List.mapIdx_cons, polyline, if_true, List.cons.injEq, true_and]
    apply List.ext_getElem
    · simp
    · intro i h1 h2; simp

theorem linesPath_eq (clip : Rect) (xs ys : List ℝ) (hl : xs.length = ys.length) (b e : Nat) (he : e ≤ xs.length) :
    linesPath clip xs ys b e = some (seriesPath clip (((xs.zip ys).take e).drop b)) := by
  have hlen : (xs.zip ys).length = xs.length := by simp [hl]
  rw [linesPath, mapM_some_of _ (fun i => if i = b then
      .moveTo (clip.x + xs.getD i 0 * clip.w) (clip.y + ys.getD i 0 * clip.h)
      else .lineTo (clip.x + xs.getD i 0 * clip.w) (clip.y + ys.getD i 0 * clip.h))]
  · rw [seriesPath, ← polyline_mapIdx]
    congr 1
    apply List.ext_getElem
    · simp; omega
    · intro i h1 h2
      simp at h1
      have h3 : b + i < xs.length := by omega
      have h4 : b + i < ys.length := by omega
      simp [h3, h4, at_]
  · intro i hi
    simp at hi
    have h3 : i < xs.length := by omega
    have h4 : i < ys.length := by omega
    simp [h3, h4]

theorem pieces_range {α : Type} (cuts : List Nat) (l : List α) :
    pieces cuts l = (List.range (cuts.length + 1)).map fun n =>
      (l.take (cuts.getD n l.length)).drop (if n > 0 then cuts.getD (n - 1) 0 else 0) := by
  apply List.ext_getElem
  · simp [pieces]
  · intro i h1 h2
    simp at h2
    simp only [pieces, List.getElem_zipWith, List.getElem_map, List.getElem_range]
    have e1 : (0 :: cuts)[i]'(by simp; omega) = if i > 0 then cuts.getD (i - 1) 0 else 0 := by
      cases i with
      | zero => rfl
      | succ i =>
        have : i < cuts.length := by omega
        simp [this]
    have e2 : (cuts ++ [l.length])[i]'(by simp; omega) = cuts.getD i l.length := by
      by_cases h : i < cuts.length
      · rw [List.getElem_append_left h]; simp [h]
      · have : i = cuts.length := by omega
        subst this
        simp
    rw [e1, e2]

/-- The pieces between sorted cuts make up the whole list. -/
theorem pieces_flatten {α : Type} (l : List α) : ∀ (cuts : List Nat) (b : Nat), (b :: cuts).Pairwise (· ≤ ·) →
    (∀ c ∈ b :: cuts, c ≤ l.length) →
    (List.zipWith (fun b e => (l.take e).drop b) (b :: cuts) (cuts ++ [l.length])).flatten = l.drop b := by
  intro cuts
  induction cuts with
  | nil => intro b _ _; simp
  | cons c cuts ih =>
    intro b hs hb
    rw [List.cons_append, List.zipWith_cons_cons, List.flatten_cons, ih c (List.pairwise_cons.1 hs).2
      (fun x hx => hb x (by simp only [List.mem_cons] at hx ⊢; tauto))]
    have hbc : b ≤ c := (List.pairwise_cons.1 hs).1 c (by simp)
    have hcl : c ≤ l.length := hb c (by simp)
    rw [List.drop_take]
    conv_rhs => rw [← List.take_append_drop (c - b) (l.drop b)]
    rw [List.drop_drop]
    congr 2
    omega

end Clip
