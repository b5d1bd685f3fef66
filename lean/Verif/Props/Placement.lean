import Verif.Spec.Placement
import Verif.Props.Style
set_option linter.unusedSimpArgs false
/-!
# C92: placements of ticks and labels
-/
namespace Clip
open Drawing Options
variable {stod : Str → Option (ℝ × Nat)}

theorem tickArgs_one {args : List Expr} {v : ℝ} :
    tickArgs stod 1 args = .ok [v] ↔ ∃ a, args = [a] ∧ exprToFloat stod a = .ok v := by
  unfold tickArgs
  match args with
  | [] => simp
  | [a] =>
    simp only [List.length_singleton, ne_eq, not_true_eq_false, if_false, exprToFloats, List.cons.injEq, and_true,
      exists_eq_left']
    cases exprToFloat stod a <;> simp
  | _ :: _ :: _ => simp

theorem tickArgs_two {args : List Expr} {v w : ℝ} :
    tickArgs stod 2 args = .ok [v, w] ↔ ∃ a b, args = [a, b] ∧ exprToFloat stod a = .ok v ∧ exprToFloat stod b = .ok w := by
  unfold tickArgs
  match args with
  | [] => simp
  | [a] => simp
  | [a, b] =>
    simp only [List.length_cons, List.length_nil, ne_eq, not_true_eq_false, if_false, exprToFloats]
    cases ha : exprToFloat stod a <;> cases hb : exprToFloat stod b <;> simp [ha, hb]
  | _ :: _ :: _ :: _ => simp

theorem tickArgs_three {args : List Expr} {v w x : ℝ} :
    tickArgs stod 3 args = .ok [v, w, x] ↔ ∃ a b c, args = [a, b, c] ∧ exprToFloat stod a = .ok v ∧
      exprToFloat stod b = .ok w ∧ exprToFloat stod c = .ok x := by
  unfold tickArgs
  match args with
  | [] => simp
  | [a] => simp
  | [a, b] => simp
  | [a, b, c] =>
    simp only [List.length_cons, List.length_nil, ne_eq, not_true_eq_false, if_false, exprToFloats]
    cases ha : exprToFloat stod a <;> cases hb : exprToFloat stod b <;> cases hc : exprToFloat stod c <;> simp [ha, hb, hc]
  | _ :: _ :: _ :: _ :: _ => simp

theorem isCall_ne {k : Expr} {as rest : List Expr} {v w : String} (h : IsWord k v) (hne : v ≠ w) :
    isCall (.list (k :: as) :: rest) w.toList = none := by
  cases hc : isCall (.list (k :: as) :: rest) w.toList with
  | none => rfl
  | some bs => exact absurd (String.toList_inj.1 (isCall_unique (call_of h) hc).1) hne

theorem isCall_word {k : Expr} {rest : List Expr} {v w : String} (h : IsWord k v) : isCall (k :: rest) w.toList = none := by
  cases hc : isCall (k :: rest) w.toList with
  | none => rfl
  | some bs => exact absurd hc (kw_disjoint (word_of h))

theorem isWord_ne {k : Expr} {rest : List Expr} {v w : String} (h : IsWord k v) (hne : v ≠ w) :
    isWord (k :: rest) w.toList = false := by
  cases hc : isWord (k :: rest) w.toList with
  | false => rfl
  | true => exact absurd (String.toList_inj.1 (isWord_unique (word_of (rest := rest) h) hc)) hne

/-- C92: a placement is accepted exactly if it is one of the forms of the list, with numbers as arguments, and means just
that. -/
theorem C92_placement (stod : Str → Option (ℝ × Nat)) (args : List Expr) (t : TickSpec) :
    scaleConfigureLayout stod args = .ok t ↔ Placement stod args t := by
  constructor
  · intro h
    unfold scaleConfigureLayout at h
    split at h
    · rename_i as hc
      obtain ⟨k, r, rfl, hk⟩ := isCall_some.1 hc
      split at h
      · rename_i s ht
        obtain ⟨a, rfl, ha⟩ := tickArgs_one.1 ht
        cases h; exact .linear hk ha
      · cases h
      · cases h
    split at h
    · rename_i as hc
      obtain ⟨k, r, rfl, hk⟩ := isCall_some.1 hc
      split at h
      · rename_i s ht
        obtain ⟨a, rfl, ha⟩ := tickArgs_one.1 ht
        cases h; exact .align hk ha
      · cases h
      · cases h
    split at h
    · rename_i as hc
      obtain ⟨k, r, rfl, hk⟩ := isCall_some.1 hc
      split at h
      · rename_i s ht
        obtain ⟨a, b, rfl, ha, hb⟩ := tickArgs_two.1 ht
        cases h; exact .alignat hk ha hb
      · cases h
      · cases h
    split at h
    · rename_i as hc
      obtain ⟨k, r, rfl, hk⟩ := isCall_some.1 hc
      split at h
      · rename_i s ht
        obtain ⟨a, b, c, rfl, ha, hb, hc'⟩ := tickArgs_three.1 ht
        cases h; exact .interval hk ha hb hc'
      · cases h
      · cases h
    split at h
    · rename_i as hc
      obtain ⟨k, r, rfl, hk⟩ := isCall_some.1 hc
      split at h
      · rename_i s ht
        obtain ⟨a, rfl, ha⟩ := tickArgs_one.1 ht
        cases h; exact .exponential hk ha
      · cases h
      · cases h
    split at h
    · rename_i as hc
      obtain ⟨k, r, rfl, hk⟩ := isCall_some.1 hc
      split at h
      · rename_i s ht
        obtain ⟨a, b, rfl, ha, hb⟩ := tickArgs_two.1 ht
        cases h; exact .expSteps hk ha hb
      · cases h
      · cases h
    split at h
    · rename_i as hc
      obtain ⟨k, r, rfl, hk⟩ := isCall_some.1 hc
      unfold tickSubdivide at h
      split at h
      · cases h; exact .subdivideDefault hk
      · split at h
        · rename_i ha
          cases h; exact .subdivide hk ha
        · cases h
      · cases h
    split at h
    · rename_i hw
      obtain ⟨k, r, rfl, hk⟩ := isWord_true hw
      cases h; exact .categorical hk
    split at h
    · rename_i hw
      obtain ⟨k, r, rfl, hk⟩ := isWord_true hw
      cases h; exact .bounds hk
    split at h
    · rename_i hw
      obtain ⟨k, r, rfl, hk⟩ := isWord_true hw
      cases h; exact .none hk
    · cases h
  · intro h
    unfold scaleConfigureLayout
    cases h with
    | linear hk ha => rw [call_of hk]; dsimp only; rw [tickArgs_one.2 ⟨_, rfl, ha⟩]
    | align hk ha =>
      rw [isCall_ne hk (by decide), call_of hk]; dsimp only; rw [tickArgs_one.2 ⟨_, rfl, ha⟩]
    | alignat hk ha hb =>
      rw [isCall_ne hk (by decide), isCall_ne hk (by decide), call_of hk]; dsimp only
      rw [tickArgs_two.2 ⟨_, _, rfl, ha, hb⟩]
    | interval hk ha hb hc =>
      rw [isCall_ne hk (by decide), isCall_ne hk (by decide), isCall_ne hk (by decide), call_of hk]; dsimp only
      rw [tickArgs_three.2 ⟨_, _, _, rfl, ha, hb, hc⟩]
    | exponential hk ha =>
      rw [isCall_ne hk (by decide), isCall_ne hk (by decide), isCall_ne hk (by decide), isCall_ne hk (by decide),
        call_of hk]
      dsimp only
      rw [tickArgs_one.2 ⟨_, rfl, ha⟩]
    | expSteps hk ha hb =>
      rw [isCall_ne hk (by decide), isCall_ne hk (by decide), isCall_ne hk (by decide), isCall_ne hk (by decide),
        isCall_ne hk (by decide), call_of hk]
      dsimp only
      rw [tickArgs_two.2 ⟨_, _, rfl, ha, hb⟩]
    | subdivide hk ha =>
      rw [isCall_ne hk (by decide), isCall_ne hk (by decide), isCall_ne hk (by decide), isCall_ne hk (by decide),
        isCall_ne hk (by decide), isCall_ne hk (by decide), call_of hk]
      dsimp only [tickSubdivide]
      rw [ha]
    | subdivideDefault hk =>
      rw [isCall_ne hk (by decide), isCall_ne hk (by decide), isCall_ne hk (by decide), isCall_ne hk (by decide),
        isCall_ne hk (by decide), isCall_ne hk (by decide), call_of hk]
      rfl
    | categorical hk =>
      simp only [isCall_word hk]
      rw [if_pos (word_of hk)]
    | bounds hk =>
      simp only [isCall_word hk]
      rw [if_neg (by rw [isWord_ne hk (show "categorical-bounds" ≠ "categorical" by decide)]; decide), if_pos (word_of hk)]
    | none hk =>
      simp only [isCall_word hk]
      rw [if_neg (by rw [isWord_ne hk (show "none" ≠ "categorical" by decide)]; decide),
        if_neg (by rw [isWord_ne hk (show "none" ≠ "categorical-bounds" by decide)]; decide), if_pos (word_of hk)]

end Clip
