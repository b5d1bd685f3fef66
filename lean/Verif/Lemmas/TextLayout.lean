import Verif.Model.TextLayout
import Verif.Spec.Bidi
import Mathlib.Data.List.Basic
import Mathlib.Order.MinMax
/-!
# Lemmas: bidirectional reordering
-/
namespace Clip
open Bidi

/-- All levels between positions `p` and `q` (inclusive) exist and are at least `c`. -/
def Conn (ls : List Nat) (c p q : Nat) : Prop :=
  ∀ k, min p q ≤ k → k ≤ max p q → ∃ l, ls[k]? = some l ∧ c ≤ l

theorem Conn.symm {ls : List Nat} {c p q : Nat} (h : Conn ls c p q) : Conn ls c q p := by
  intro k h1 h2; exact h k (by omega) (by omega)

theorem Conn.trans {ls : List Nat} {c p q r : Nat} (h : Conn ls c p q) (h' : Conn ls c q r) : Conn ls c p r := by
  intro k h1 h2
  by_cases hk : min p q ≤ k ∧ k ≤ max p q
  · exact h k hk.1 hk.2
  · exact h' k (by omega) (by omega)

theorem Conn.mono {ls : List Nat} {c d p q : Nat} (h : Conn ls c p q) (hd : d ≤ c) : Conn ls d p q := by
  intro k h1 h2
  obtain ⟨l, a, b⟩ := h k h1 h2
  exact ⟨l, a, by omega⟩

theorem Conn.refl_left {ls : List Nat} {c p q : Nat} (h : Conn ls c p q) : Conn ls c p p := by
  intro k h1 h2; exact h k (by omega) (by omega)

theorem conn_shift (ls : List Nat) (c p q n : Nat) : Conn ls c (n + p) (n + q) ↔ Conn (ls.drop n) c p q := by
  constructor
  · intro h k h1 h2
    rw [List.getElem?_drop]
    exact h (n + k) (by omega) (by omega)
  · intro h k h1 h2
    have := h (k - n) (by omega) (by omega)
    rw [List.getElem?_drop] at this
    have e : n + (k - n) = k := by omega
    rwa [e] at this

theorem runLen_in (c : Nat) (ls : List Nat) (k : Nat) (h : k < runLen c ls) : ∃ l, ls[k]? = some l ∧ c ≤ l := by
  induction ls generalizing k with
  | nil => simp [runLen] at h
  | cons l ls ih =>
    simp only [runLen] at h
    split at h
    · next hl =>
      cases k with
      | zero => exact ⟨l, rfl, hl⟩
      | succ k =>
        obtain ⟨m, h1, h2⟩ := ih k (by omega)
        exact ⟨m, by simpa using h1, h2⟩
    · omega

theorem runLen_out (c : Nat) (ls : List Nat) : ¬ ∃ l, ls[runLen c ls]? = some l ∧ c ≤ l := by
  induction ls with
  | nil => simp [runLen]
  | cons l ls ih =>
    simp only [runLen]
    split
    · simpa using ih
    · next hl => simpa using hl

/-- What one round does to the positions. -/
theorem levelPass_rho (c : Nat) (ls : List Nat) : ∃ ρ : Nat → Nat,
    (∀ p, ρ (ρ p) = p) ∧ (∀ p, ρ p = p ∨ Conn ls c p (ρ p)) ∧
    (∀ p q, p < q → Conn ls c p q → ρ q < ρ p) ∧
    ∀ (α : Type) (xs : List α), xs.length = ls.length → ∀ p, (levelPass c ls xs)[p]? = xs[ρ p]? := by
  induction hn : ls.length using Nat.strong_induction_on generalizing ls with
  | _ n ih =>
  cases ls with
  | nil =>
    refine ⟨id, fun _ => rfl, fun _ => .inl rfl, ?_, ?_⟩
    · intro p q _ h
      obtain ⟨l, hl, -⟩ := h p (by omega) (by omega)
      simp at hl
    · intro α xs _ p; rw [levelPass]; rfl
  | cons l ls =>
    by_cases h0 : runLen c (l :: ls) = 0
    · obtain ⟨ρ, r1, r2, r3, r4⟩ := ih ls.length (by rw [← hn]; simp) ls rfl
      have hout := runLen_out c (l :: ls)
      rw [h0] at hout
      have hz : ∀ q, ¬ Conn (l :: ls) c 0 q := fun q h => hout (h 0 (by omega) (by omega))
      have hsh : ∀ p q, Conn (l :: ls) c (p + 1) (q + 1) ↔ Conn ls c p q := by
        intro p q
        have := conn_shift (l :: ls) c p q 1
        rw [add_comm 1 p, add_comm 1 q] at this
        exact this
      refine ⟨fun p => match p with | 0 => 0 | p + 1 => ρ p + 1, ?_, ?_, ?_, ?_⟩
      · intro p; cases p with
        | zero => rfl
        | succ p => simp [r1]
      · intro p; cases p with
        | zero => exact .inl rfl
        | succ p =>
          rcases r2 p with h | h
          · left; simp [h]
          · right; exact (hsh _ _).2 h
      · intro p q hpq h
        cases p with
        | zero => exact absurd h (hz q)
        | succ p =>
          cases q with
          | zero => omega
          | succ q =>
            have := r3 p q (by omega) ((hsh _ _).1 h)
            simp only; omega
      · intro α xs hx p
        rw [levelPass, if_pos h0]
        rw [← hn] at hx
        cases xs with
        | nil => simp at hx
        | cons x xs =>
          simp only [List.take_succ_cons, List.take_zero, List.drop_succ_cons, List.drop_zero, List.cons_append,
            List.nil_append]
          cases p with
          | zero => rfl
          | succ p => simpa using r4 α xs (by simpa using hx) p
    · set m := runLen c (l :: ls) with hm
      have hle : m ≤ (l :: ls).length := runLen_le c (l :: ls)
      obtain ⟨ρ, r1, r2, r3, r4⟩ := ih ((l :: ls).drop m).length (by rw [← hn, List.length_drop]; omega) _ rfl
      have hout := runLen_out c (l :: ls)
      rw [← hm] at hout
      have hin : ∀ p q, p < m → q < m → Conn (l :: ls) c p q := by
        intro p q hp hq k h1 h2
        exact runLen_in c (l :: ls) k (by omega)
      have hz : ∀ p q, p < m → m ≤ q → ¬ Conn (l :: ls) c p q := fun p q hp hq h => hout (h m (by omega) (by omega))
      refine ⟨fun p => if p < m then m - 1 - p else ρ (p - m) + m, ?_, ?_, ?_, ?_⟩
      · intro p
        by_cases hp : p < m
        · simp only [hp, if_true]
          rw [if_pos (by omega)]; omega
        · simp only [hp, if_false]
          rw [if_neg (by omega)]
          simp only [Nat.add_sub_cancel, r1]; omega
      · intro p
        by_cases hp : p < m
        · right
          simp only [hp, if_true]
          exact hin _ _ hp (by omega)
        · simp only [hp, if_false]
          rcases r2 (p - m) with h | h
          · left; omega
          · right
            have := (conn_shift (l :: ls) c (p - m) (ρ (p - m)) m).2 h
            have e1 : m + (p - m) = p := by omega
            rw [e1, add_comm] at this
            exact this
      · intro p q hpq h
        by_cases hp : p < m
        · by_cases hq : q < m
          · simp only [hp, hq, if_true]; omega
          · exact absurd h (hz p q hp (by omega))
        · have hq : ¬ q < m := by omega
          simp only [hp, hq, if_false]
          have h' : Conn (l :: ls) c (m + (p - m)) (m + (q - m)) := by
            have e1 : m + (p - m) = p := by omega
            have e2 : m + (q - m) = q := by omega
            rwa [e1, e2]
          have := r3 (p - m) (q - m) (by omega) ((conn_shift _ _ _ _ _).1 h')
          omega
      · intro α xs hx p
        rw [levelPass, if_neg h0, ← hm]
        beta_reduce
        have hlt : ((xs.take m).reverse).length = m := by
          rw [List.length_reverse, List.length_take]; omega
        by_cases hp : p < m
        · rw [List.getElem?_append_left (by omega), if_pos hp, List.getElem?_reverse (by rw [List.length_take]; omega),
            List.length_take, List.getElem?_take]
          have : min m xs.length = m := by omega
          rw [this, if_pos (by omega)]
        · rw [List.getElem?_append_right (by omega), hlt, if_neg hp,
            r4 α (xs.drop m) (by rw [List.length_drop, List.length_drop]; omega), List.getElem?_drop, add_comm]

theorem levelPass_perm {α : Type} (c : Nat) (ls : List Nat) (xs : List α) : (levelPass c ls xs).Perm xs := by
  induction hn : ls.length using Nat.strong_induction_on generalizing ls xs with
  | _ n ih =>
  cases ls with
  | nil => rw [levelPass]
  | cons l ls =>
    rw [levelPass]
    split
    · refine (List.Perm.append_left _ (ih ls.length (by rw [← hn]; simp) ls _ rfl)).trans ?_
      rw [List.take_append_drop]
    · refine (List.Perm.append (List.reverse_perm _)
        (ih _ (by rw [← hn, List.length_drop, List.length_cons]; omega) _ _ rfl)).trans ?_
      rw [List.take_append_drop]

theorem levelPasses_perm {α : Type} (ls : List Nat) (c : Nat) (xs : List α) : (levelPasses ls c xs).Perm xs := by
  induction c generalizing xs with
  | zero => exact List.Perm.refl _
  | succ c ih => exact (ih _).trans (levelPass_perm _ _ _)

theorem rho_mono {ls : List Nat} {c : Nat} {ρ : Nat → Nat} (r2 : ∀ p, ρ p = p ∨ Conn ls c p (ρ p)) {p q : Nat}
    (hpq : p < q) (h : ¬ Conn ls c p q) : ρ p < ρ q := by
  by_contra hc
  push Not at hc
  apply h
  intro k h1 h2
  have hk1 : p ≤ k := by omega
  have hk2 : k ≤ q := by omega
  by_cases hkp : k ≤ ρ p
  · rcases r2 p with e | hp
    · -- `ρ p = p`, so `k = p` and `ρ q ≤ p`
      rcases r2 q with e' | hq
      · omega
      · exact hq k (by omega) (by omega)
    · exact hp k (by omega) (by omega)
  · rcases r2 q with e' | hq
    · omega
    · exact hq k (by omega) (by omega)

/-- The state after the rounds above level `c`. -/
structure OrderInv (ls : List Nat) (c : Nat) (xs : List Nat) : Prop where
  len : xs.length = ls.length
  near : ∀ p i : Nat, xs[p]? = some i → i = p ∨ Conn ls (c + 1) p i
  order : ∀ p q i j m : Nat, xs[p]? = some i → xs[q]? = some j → i < j → LeastBetween ls i j m → (p < q ↔ (m - c) % 2 = 0)

theorem orderInv_step {ls : List Nat} {c : Nat} {xs : List Nat} (h : OrderInv ls (c + 1) xs) :
    OrderInv ls c (levelPass (c + 1) ls xs) := by
  obtain ⟨ρ, r1, r2, r3, r4⟩ := levelPass_rho (c + 1) ls
  have r4 := r4 Nat xs h.len
  refine ⟨by rw [(levelPass_perm _ _ _).length_eq, h.len], ?_, ?_⟩
  · intro p i hi
    rw [r4] at hi
    rcases h.near _ _ hi with e | hc
    · subst e
      rcases r2 p with e | hp
      · exact .inl e
      · exact .inr hp
    · have hc := hc.mono (show c + 1 ≤ c + 1 + 1 by omega)
      rcases r2 p with e | hp
      · rw [e] at hc; exact .inr hc
      · exact .inr (hp.trans hc)
  · intro p q i j m hi hj hij hm
    rw [r4] at hi hj
    have hord := h.order _ _ _ _ _ hi hj hij hm
    have hne : ρ p ≠ ρ q := by
      intro e; rw [e, hj] at hi; cases hi; omega
    have hni := h.near _ _ hi
    have hnj := h.near _ _ hj
    -- connectedness of the positions and of the elements
    have hlen : ∀ p i : Nat, xs[p]? = some i → i < ls.length := by
      intro p i hpi
      rcases h.near _ _ hpi with e | hc
      · subst e
        have := (List.getElem?_eq_some_iff.1 hpi).1
        rw [h.len] at this; exact this
      · obtain ⟨l, hl, -⟩ := hc i (by omega) (by omega)
        exact (List.getElem?_eq_some_iff.1 hl).1
    have hjl := hlen _ _ hj
    have hconn : Conn ls (c + 1) (ρ p) (ρ q) ↔ Conn ls (c + 1) i j := by
      have a1 : i = ρ p ∨ Conn ls (c + 1) (ρ p) i := hni.imp id (·.mono (by omega))
      have a2 : j = ρ q ∨ Conn ls (c + 1) (ρ q) j := hnj.imp id (·.mono (by omega))
      constructor
      · intro hc
        have h1 : Conn ls (c + 1) i (ρ q) := by
          rcases a1 with e | a1
          · rwa [e]
          · exact a1.symm.trans hc
        rcases a2 with e | a2
        · rwa [e]
        · exact h1.trans a2
      · intro hc
        have h1 : Conn ls (c + 1) (ρ p) j := by
          rcases a1 with e | a1
          · rwa [← e]
          · exact a1.trans hc
        rcases a2 with e | a2
        · rwa [← e]
        · exact h1.trans a2.symm
    obtain ⟨hm1, k, hk1, hk2, hkm⟩ := hm
    by_cases hcm : c + 1 ≤ m
    · have hc : Conn ls (c + 1) i j := by
        intro k h1 h2
        have hkl : k < ls.length := by omega
        have := hm1 k _ (by omega) (by omega) (List.getElem?_eq_getElem hkl)
        exact ⟨_, List.getElem?_eq_getElem hkl, by omega⟩
      have hc' := hconn.2 hc
      have flip : p < q ↔ ¬ ρ p < ρ q := by
        constructor
        · intro hpq hlt
          have := r3 _ _ hlt hc'
          rw [r1, r1] at this; omega
        · intro hnl
          have := r3 _ _ (show ρ q < ρ p by omega) hc'.symm
          rw [r1, r1] at this; exact this
      rw [flip, hord]; omega
    · have hc : ¬ Conn ls (c + 1) i j := by
        intro hc
        obtain ⟨l, h1, h2⟩ := hc k (by omega) (by omega)
        rw [hkm] at h1; cases h1; omega
      have e1 : (m - c) % 2 = 0 := by have : m - c = 0 := by omega
                                      simp [this]
      have e2 : (m - (c + 1)) % 2 = 0 := by have : m - (c + 1) = 0 := by omega
                                            simp [this]
      have hlt := hord.2 e2
      have := rho_mono r2 hlt (fun h => hc (hconn.1 h))
      rw [r1, r1] at this
      exact ⟨fun _ => e1, fun _ => this⟩

theorem orderInv_passes {ls : List Nat} {c : Nat} {xs : List Nat} (h : OrderInv ls c xs) :
    OrderInv ls 0 (levelPasses ls c xs) := by
  induction c generalizing xs with
  | zero => exact h
  | succ c ih => exact ih (orderInv_step h)

theorem foldl_max_le (ls : List Nat) (a : Nat) : a ≤ ls.foldl max a ∧ ∀ l ∈ ls, l ≤ ls.foldl max a := by
  induction ls generalizing a with
  | nil => simp
  | cons x ls ih =>
    simp only [List.foldl_cons]
    have := ih (max a x)
    refine ⟨by omega, fun l hl => ?_⟩
    rcases List.mem_cons.1 hl with rfl | hl
    · omega
    · exact this.2 l hl

theorem orderInv_init (l : Nat) (ls : List Nat) :
    OrderInv (l :: ls) (ls.foldl max l) (List.range (l :: ls).length) := by
  refine ⟨by simp, ?_, ?_⟩
  · intro p i h
    rw [List.getElem?_eq_some_iff] at h
    obtain ⟨h1, h2⟩ := h
    left; rw [← h2]; simp
  · intro p q i j m hp hq hij hm
    rw [List.getElem?_eq_some_iff] at hp hq
    obtain ⟨h1, h2⟩ := hp
    obtain ⟨h3, h4⟩ := hq
    have e1 : i = p := by rw [← h2]; simp
    have e2 : j = q := by rw [← h4]; simp
    subst e1; subst e2
    obtain ⟨-, k, -, -, hk⟩ := hm
    have hmem : m ∈ l :: ls := List.mem_of_getElem? hk
    have hmax : m ≤ ls.foldl max l := by
      rcases List.mem_cons.1 hmem with rfl | hmem
      · exact (foldl_max_le ls m).1
      · exact (foldl_max_le ls l).2 m hmem
    have : m - ls.foldl max l = 0 := by omega
    simp [this, hij]

end Clip
