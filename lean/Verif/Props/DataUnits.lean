import Verif.Spec.DataUnits
import Verif.Spec.Limits
import Verif.Lemmas.Rearrange
import Verif.Props.WholePicture
import Mathlib.Tactic.FieldSimp
/-!
# C104: other units
-/
namespace Clip
noncomputable section
open Commands Settings Drawing Pictures PlotSpec AxisSpec DataSpec Elements Options LegendSpec Whole Rearrange Units Limits
variable {φ : Type}

theorem isNumber_det (P : PlotEnv φ) {v : Datum} {x y : ℝ} (h : v.IsNumber P x) (h' : v.IsNumber P y) : x = y := by
  rcases h with rfl | ⟨t, rfl, h1, h2⟩
  · rcases h' with h | ⟨t, h, -⟩ <;> cases h
    rfl
  · rcases h' with h | ⟨t', h, h3, h4⟩ <;> cases h
    rw [h2] at h4
    exact Option.some.inj h4

theorem hasValues_det {b : DataBuffer (Option ℝ)} {vs ws : List Datum} (h : HasValues b vs) (h' : HasValues b ws) : vs = ws := by
  unfold HasValues at h h'
  generalize b.index = l at h h'
  induction h generalizing ws with
  | nil => cases h'; rfl
  | cons h1 _ ih =>
    cases h' with
    | cons h2 h3 =>
      rw [ih h3]
      congr 1
      rcases h1 with ⟨e, x, h1, rfl⟩ | ⟨e, x, h1, rfl⟩ <;> rcases h2 with ⟨e', y, h2, rfl⟩ | ⟨e', y, h2, rfl⟩ <;> simp_all

/-- C104: on a linear scale whose limits are in the same units, nothing moves when the units of the data change. -/
theorem C104_positions (P : PlotEnv φ) (a b : ℝ) (ha : a ≠ 0) (s s' : Scale) (hk : s.kind = .linear) (hk' : s'.kind = .linear)
    (hi : s'.inverted = s.inverted) (hlo : lower s' = a * lower s + b) (hhi : upper s' = a * upper s + b)
    (series series' : DataBuffer (Option ℝ)) (hc : Converted P (fun x => a * x + b) series series') (us : List ℝ) :
    Positions P s series us ↔ Positions P s' series' us := by
  obtain ⟨vs, vs', h1, h2, h3⟩ := hc
  have key : ∀ v v' u, (∃ x, v.IsNumber P x ∧ v'.IsNumber P (a * x + b)) → (StandsAt P s v u ↔ StandsAt P s' v' u) := by
    rintro v v' u ⟨x, hx, hx'⟩
    have e : (a * x + b - lower s') / (upper s' - lower s') = (x - lower s) / (upper s - lower s) := by
      rw [hlo, hhi]
      have e1 : a * x + b - (a * lower s + b) = a * (x - lower s) := by ring
      have e2 : a * upper s + b - (a * lower s + b) = a * (upper s - lower s) := by ring
      rw [e1, e2, mul_div_mul_left _ _ ha]
    have fl : ∀ u, flipped s' u = flipped s u := by intro u; unfold flipped; rw [hi]
    constructor
    · rintro (⟨_, hy, hne, rfl⟩ | ⟨h, _⟩ | ⟨h, _⟩ | ⟨h, _⟩)
      · cases isNumber_det P hx hy
        refine .linear hk' hx' ?_ (by rw [fl, e])
        rw [hlo, hhi]
        intro h
        exact hne (mul_left_cancel₀ ha (add_right_cancel h))
      all_goals rw [hk] at h; cases h
    · rintro (⟨_, hy, hne, rfl⟩ | ⟨h, _⟩ | ⟨h, _⟩ | ⟨h, _⟩)
      · cases isNumber_det P hx' hy
        refine .linear hk hx ?_ (by rw [fl, e])
        intro h
        rw [hlo, hhi, h] at hne
        exact hne rfl
      all_goals rw [hk'] at h; cases h
  have all : List.Forall₂ (StandsAt P s) vs us ↔ List.Forall₂ (StandsAt P s') vs' us := by
    clear h1 h2
    induction h3 generalizing us with
    | nil => constructor <;> (intro h; cases h; exact .nil)
    | cons h _ ih =>
      constructor
      · intro h'
        cases h' with
        | cons h4 h5 => exact .cons ((key _ _ _ h).1 h4) ((ih _).1 h5)
      · intro h'
        cases h' with
        | cons h4 h5 => exact .cons ((key _ _ _ h).2 h4) ((ih _).2 h5)
  constructor
  · rintro ⟨ws, h, h'⟩
    cases hasValues_det h1 h
    exact ⟨vs', h2, all.1 h'⟩
  · rintro ⟨ws, h, h'⟩
    cases hasValues_det h2 h
    exact ⟨vs, h1, all.2 h'⟩

/-- C104: automatic limits change with the units of the data. -/
theorem C104_limits (a b : ℝ) (ha : 0 < a) (S : Set ℝ) (hS : S.Nonempty) (s s' : Scale)
    (hs : LimitsOf S s.hints) (hs' : LimitsOf ((fun x => a * x + b) '' S) s'.hints)
    (hpad : s'.padding = a * s.padding) (hmin : s'.min = s.min.map fun x => a * x + b)
    (hmax : s'.max = s.max.map fun x => a * x + b) : lower s' = a * lower s + b ∧ upper s' = a * upper s + b := by
  obtain ⟨h, -⟩ | ⟨m, M, e, hm, hM⟩ := hs
  · exact absurd h hS.ne_empty
  obtain ⟨h, -⟩ | ⟨m', M', e', hm', hM'⟩ := hs'
  · exact absurd h (hS.image _).ne_empty
  have mono : Monotone fun x => a * x + b := fun x y h => by
    have := mul_le_mul_of_nonneg_left h ha.le
    simpa using this
  have e1 : m' = a * m + b := hm'.unique (mono.map_isLeast hm)
  have e2 : M' = a * M + b := hM'.unique (mono.map_isGreatest hM)
  unfold lower upper
  rw [e, e', hpad, hmin, hmax, e1, e2]
  constructor
  · cases s.min <;> simp <;> ring
  · cases s.max <;> simp <;> ring

/-! ## A plot of points -/

theorem reads_points_first (P : PlotEnv φ) (args : List Expr) (s s' : PlotState φ) :
    Reads (first P) [cmd "points" args] s s' ↔ fits P SettledPoints (fun c => [c.x]) (fun c => [c.y]) args s s' := by
  constructor
  · intro h
    cases h with
    | step n f h1 h2 h3 h4 h5 =>
      cases h5
      have e : n = "points" := name_inj h3 rfl
      subst e
      simp [first] at h2
      subst h2
      exact h4
    | skip h1 h2 h3 => exact absurd rfl (h2 ("points", fits P SettledPoints (fun c => [c.x]) fun c => [c.y]) (by simp [first]))
  · intro h
    exact .step "points" _ rfl (by simp [first]) rfl h (.nil _)

theorem reads_points_second (P : PlotEnv φ) (args : List Expr) (s s' : PlotState φ) :
    Reads (second P) [cmd "points" args] s s' ↔ draws P PointsOf args s s' := by
  constructor
  · intro h
    cases h with
    | step n f h1 h2 h3 h4 h5 =>
      cases h5
      have e : n = "points" := name_inj h3 rfl
      subst e
      simp [second] at h2
      subst h2
      exact h4
    | skip h1 h2 h3 => exact absurd rfl (h2 ("points", draws P PointsOf) (by simp [second]))
  · intro h
    exact .step "points" _ rfl (by simp [second]) rfl h (.nil _)

theorem counts_one (P : PlotEnv φ) {sc : Scale} (hk : sc.kind ≠ .categorical) {f : ℝ → ℝ} {b b' : DataBuffer (Option ℝ)}
    (hc : Converted P f b b') : ∃ xs, Counts P sc b xs ∧ Counts P sc b' (xs.map f) ∧ (xs = [] → ∃ vs, HasValues b vs ∧ vs = []) := by
  obtain ⟨vs, vs', h1, h2, h3⟩ := hc
  suffices ∃ xs, List.Forall₂ (CountsAs P sc) vs xs ∧ List.Forall₂ (CountsAs P sc) vs' (xs.map f) by
    obtain ⟨xs, h4, h5⟩ := this
    refine ⟨xs, ⟨vs, h1, h4⟩, ⟨vs', h2, h5⟩, ?_⟩
    rintro rfl
    cases h4
    exact ⟨[], h1, rfl⟩
  clear h1 h2
  have num : ∀ {v : Datum} {x : ℝ}, v.IsNumber P x → CountsAs P sc v x := by
    rintro v x (h | ⟨t, h, _, h'⟩)
    · exact .inl ⟨hk, .inl h⟩
    · exact .inl ⟨hk, .inr ⟨t, h, h'⟩⟩
  induction h3 with
  | nil => exact ⟨[], .nil, .nil⟩
  | cons h _ ih =>
    obtain ⟨x, hx, hx'⟩ := h
    obtain ⟨xs, i1, i2⟩ := ih
    exact ⟨x :: xs, .cons (num hx) i1, .cons (num hx') i2⟩

theorem counts_det (P : PlotEnv φ) {sc : Scale} {b : DataBuffer (Option ℝ)} {xs ys : List ℝ} (h : Counts P sc b xs)
    (h' : Counts P sc b ys) : xs = ys := by
  obtain ⟨vs, h1, h2⟩ := h
  obtain ⟨ws, h3, h4⟩ := h'
  cases hasValues_det h1 h3
  clear h1 h3
  induction h2 generalizing ys with
  | nil => cases h4; rfl
  | cons h _ ih =>
    cases h4 with
    | cons h' h'' =>
      rw [ih h'']
      congr 1
      rcases h with ⟨k, h⟩ | ⟨k, i, h, rfl⟩ <;> rcases h' with ⟨k', h'⟩ | ⟨k', j, h', rfl⟩
      · rcases h with rfl | ⟨t, rfl, h⟩ <;> rcases h' with h' | ⟨t', h', h''⟩ <;> cases h'
        · rfl
        · rw [h] at h''; exact Option.some.inj h''
      · exact absurd k' k
      · exact absurd k k'
      · rw [h] at h'; rw [Option.some.inj h']

/-- The automatic limits of a fresh scale. -/
theorem limitsOf_fresh (xs : List ℝ) (h : LimitHints ℝ) (he : Extended {} xs h) : LimitsOf {x | x ∈ xs} h := by
  obtain ⟨h1, h2⟩ := he
  rcases h1 with ⟨-, rfl, e⟩ | ⟨m, e, hm⟩ <;> rcases h2 with ⟨-, e0, e'⟩ | ⟨M, e', hM⟩
  · left
    refine ⟨by ext; simp, ?_⟩
    cases h
    simp_all
  · have := hM.1
    simp at this
  · subst e0
    have := hm.1
    simp at this
  · right
    refine ⟨m, M, ?_, by simpa using hm, by simpa using hM⟩
    cases h
    simp_all

/-- C104: a scatter plot with automatic limits does not change with the units of its data: if all the data along the
horizontal scale are converted (for instance from degrees Celsius to degrees Fahrenheit), the padding of the scale as well,
and all the other settings are the same, then the same shapes are drawn. -/
theorem C104_points (P : PlotEnv φ) (hT : LevelsOfChars P.text) (L : Layer φ) (hp : L.palette ≠ []) (args args' : List Expr)
    (c c' : PointsConf φ) (hc : pointsConfigure P { layer := L } args = .ok c)
    (hc' : pointsConfigure P { layer := L } args' = .ok c') (a b : ℝ) (ha : 0 < a)
    (hx : Converted P (fun x => a * x + b) c.x c'.x)
    (hsame : c' = { c with
      refs := c'.refs
      x := c'.x
      scales := ⟨{ c.scales.x with padding := a * c.scales.x.padding }, c.scales.y⟩ })
    (hk : c.scales.x.kind = .linear) (hmin : c.scales.x.min = none) (hmax : c.scales.x.max = none) (L' : Layer φ)
    (h : plotModule P [cmd "points" args] L = (L', none)) : plotModule P [cmd "points" args'] L = (L', none) := by
  rw [C97_plot P hT _ L _ hp] at h ⊢
  obtain ⟨s, s', h1, h2, rfl⟩ := h
  have hb : ({ layer := L } : PlotState φ) = blank L := rfl
  rw [hb] at hc hc'
  rw [reads_points_first] at h1
  rw [reads_points_second] at h2
  obtain ⟨c₁, sx, sy, h3, ⟨xss, hh, h4, h5, rfl⟩, h6, rfl⟩ := h1
  rw [← settledPoints P (blank L) hp, hc] at h3
  cases h3
  cases h4 with
  | cons h7 h8 =>
  rename_i xs _
  cases h8
  simp only [List.flatten_cons, List.flatten_nil, List.append_nil] at h5
  have hk0 : (Defaults.freshScale).kind ≠ .categorical := by decide
  obtain ⟨xs', n1, n2, n3⟩ := counts_one P (sc := (blank L).scales.x) hk0 hx
  cases counts_det P h7 n1
  obtain ⟨hh', k1⟩ : ∃ hh', Extended (blank L).scales.x.hints (xs.map fun x => a * x + b) hh' := ⟨_, (extended_iff _ _ _).2 rfl⟩
  have hset : SettledPoints P (blank L) args c := (settledPoints P (blank L) hp args c).1 hc
  have hset' : SettledPoints P (blank L) args' c' := (settledPoints P (blank L) hp args' c').1 hc'
  obtain ⟨shapes, ⟨c₂, us, vs, g1, g2, g3, g4, g5, g6⟩, rfl⟩ := h2
  obtain ⟨yss, hy, h9, h10, rfl⟩ := h6
  refine ⟨hintedP hh' hy (blank L), { hintedP hh' hy (blank L) with layer := draw L shapes }, ?_, ?_, rfl⟩
  · rw [reads_points_first]
    refine ⟨c', _, _, hset', ⟨[xs.map fun x => a * x + b], hh', .cons n2 .nil, by simpa using k1, rfl⟩, ⟨yss, hy, ?_, h10, rfl⟩, rfl⟩
    have : c'.y = c.y := by rw [hsame]
    simp only [this]
    exact h9
  · rw [reads_points_second]
    have e₂ : c₂ = { c with scales := hintedS hh hy c.scales } := by
      have q1 := points_hints P (blank L) args hh hy hset
      have q2 := (settledPoints P (hintedP hh hy (blank L)) hp args _).2 q1
      have q3 := (settledPoints P (hintedP hh hy (blank L)) hp args _).2 g1
      rw [q2] at q3
      cases q3
      rfl
    subst e₂
    have g1' := points_hints P (blank L) args' hh' hy hset'
    have hxpos : Positions P (hinted hh' c'.scales.x) c'.x us := by
      have sc : c'.scales.x = { c.scales.x with padding := a * c.scales.x.padding } := by rw [hsame]
      by_cases hne : xs = []
      · obtain ⟨ws, w1, rfl⟩ := n3 hne
        obtain ⟨ws', w2, w3⟩ := g2
        cases hasValues_det w1 w2
        cases w3
        obtain ⟨v1, v2, q1, q2, q3⟩ := hx
        cases hasValues_det w1 q1
        cases q3
        exact ⟨[], q2, .nil⟩
      · have l1 := limitsOf_fresh xs hh h5
        have l2 := limitsOf_fresh _ hh' k1
        have im : {x | x ∈ xs.map fun x => a * x + b} = (fun x => a * x + b) '' {x | x ∈ xs} := by
          ext y
          simp
        rw [im] at l2
        obtain ⟨lo, hi⟩ := C104_limits a b ha _ (by
          obtain ⟨x, t, rfl⟩ := List.exists_cons_of_ne_nil hne
          exact ⟨x, by simp⟩) (hinted hh c.scales.x) (hinted hh' c'.scales.x) l1 l2 (by rw [sc]; rfl)
          (by rw [sc]; simp [hinted, hmin]) (by rw [sc]; simp [hinted, hmax])
        refine (C104_positions P a b ha.ne' (hinted hh c.scales.x) (hinted hh' c'.scales.x) hk (by rw [sc]; exact hk)
          (by rw [sc]; rfl) lo hi c.x c'.x hx us).1 g2
    have ey : c'.y = c.y := by rw [hsame]
    have esy : c'.scales.y = c.scales.y := by rw [hsame]
    have el : c'.labels = c.labels := by rw [hsame]
    refine ⟨shapes, ⟨_, us, vs, g1', hxpos, ?_, g4, ?_, ?_⟩, rfl⟩
    · simp only [hintedS, ey, esy]
      exact g3
    · simp only [el]
      exact g5
    · clear hset' hxpos n2 k1 hc' g1' ey esy el hx n3
      rw [hsame]
      exact g6

/-! ## An example -/

/-- `(data-x (list a b)) (data-y (list 2 8))` -/
def exUnits (a b : String) : List Expr := [exData "data-x" [a, b], exData "data-y" ["2", "8"]]

def exUnitsConf (s : PlotState φ) (a b : String) : PointsConf φ := { pointsDefault s with
  refs := { refX := some (.list (.literal "list".toList :: [a, b].map fun v => .literal v.toList)),
            refY := some (.list (.literal "list".toList :: ["2", "8"].map fun v => .literal v.toList)) }
  x := ⟨[(false, 0), (false, 1)], [], [a.toList, b.toList]⟩
  y := ⟨[(false, 0), (false, 1)], [], ["2".toList, "8".toList]⟩ }

theorem exUnits_ok (P : PlotEnv φ) (s : PlotState φ) (a b : String) :
    pointsConfigure P s (exUnits a b) = .ok (exUnitsConf s a b) := by
  have hx : optTable (pointsOpts P (s.env P)) "data-x".toList = some (onPart (·.refs) (fun c v => { c with refs := v })
      fun args d => ({ d with refX := args.head? }, none)) := by
    simp [optTable, pointsOpts, liftOpts, dataOpts, List.find?]
  have hy : optTable (pointsOpts P (s.env P)) "data-y".toList = some (onPart (·.refs) (fun c v => { c with refs := v })
      fun args d => ({ d with refY := args.head? }, none)) := by
    simp [optTable, pointsOpts, liftOpts, dataOpts, List.find?]
  have hex : walkRead (optTable (pointsOpts P (s.env P))) (exUnits a b) (pointsDefault s) =
      ({ pointsDefault s with refs := (exUnitsConf s a b).refs }, none) :=
    (walkRead_ok _ _ _ _).2 (.cons rfl hx rfl (.cons rfl hy rfl (.nil _)))
  unfold pointsConfigure
  rw [hex]
  have h1 : loadInlineRef P.readFile (exUnitsConf s a b).refs.refX = ([a.toList, b.toList], .ok ()) := rfl
  have h2 : loadInlineRef P.readFile (exUnitsConf s a b).refs.refY = (["2".toList, "8".toList], .ok ()) := rfl
  simp only [loadPoints, dataLoadPoints2, h1, h2]
  rfl

theorem exUnits_drawn (P : PlotEnv φ) (hT : LevelsOfChars P.text) (L : Layer φ) (hp : L.palette ≠ [])
    (h10 : P.parse "10".toList = some 10) (h30 : P.parse "30".toList = some 30)
    (h2 : P.parse "2".toList = some 2) (h8 : P.parse "8".toList = some 8) :
    ∃ p q, plotModule P [cmd "points" (exUnits "10" "30")] L =
      (draw L [⟨p, ⟨[.black], [], [], []⟩, false⟩, ⟨q, ⟨[.black], [], [], []⟩, false⟩], none) := by
  have set : ∀ s : PlotState φ, s.layer = L → SettledPoints P s (exUnits "10" "30") (exUnitsConf s "10" "30") := by
    rintro s rfl
    exact (settledPoints P s hp _ _).1 (exUnits_ok P _ _ _)
  let s : PlotState φ := { layer := L, scales := ⟨{ hints := ⟨some 10, some 30⟩ }, { hints := ⟨some 2, some 8⟩ }⟩ }
  have hx : Positions P s.scales.x ⟨[(false, 0), (false, 1)], [], ["10".toList, "30".toList]⟩ [0, 1] :=
    (positions_iff _ _ _ _).1 (exTranslate P _ rfl _ _ 10 30 (by decide) (by decide) h10 h30 0 1
      (by norm_num [s, scaleTranslate, translateLinear, scaleMin, scaleMax])
      (by norm_num [s, scaleTranslate, translateLinear, scaleMin, scaleMax]))
  have hy : Positions P s.scales.y ⟨[(false, 0), (false, 1)], [], ["2".toList, "8".toList]⟩ [0, 1] :=
    (positions_iff _ _ _ _).1 (exTranslate P _ rfl _ _ 2 8 (by decide) (by decide) h2 h8 0 1
      (by norm_num [s, scaleTranslate, translateLinear, scaleMin, scaleMax])
      (by norm_num [s, scaleTranslate, translateLinear, scaleMin, scaleMax]))
  obtain ⟨p, q, hd⟩ : ∃ p q, PointsPicture P.text s (exUnitsConf s "10" "30") [0, 1] [0, 1]
      [⟨p, ⟨[.black], [], [], []⟩, false⟩, ⟨q, ⟨[.black], [], [], []⟩, false⟩] := by
    unfold PointsPicture
    have e1 : (exUnitsConf s "10" "30").labels = [] := rfl
    have e2 : (exUnitsConf s "10" "30").shapes = [] := rfl
    have e3 : (exUnitsConf s "10" "30").sizes = [] := rfl
    have e4 : (exUnitsConf s "10" "30").colors = [] := rfl
    simp only [e1, e2, e3, e4, List.zip_nil_left, List.mapIdx_nil, List.append_nil, List.zip_cons_cons, List.zip_nil_right,
      List.mapIdx_cons, inOrder_cons, inOrder_nil]
    exact ⟨_, _, _, _, rfl, ⟨_, _, rfl, rfl, rfl⟩, rfl⟩
  exact ⟨p, q, (C97_plot P hT _ L _ hp).2 ⟨s, { s with layer := draw L _ }, (reads_points_first ..).2 ⟨_, _, _, set _ rfl,
    fitted_pair P _ _ 10 30 h10 h30 (by norm_num), fitted_pair P _ _ 2 8 h2 h8 (by norm_num), rfl⟩,
    (reads_points_second ..).2 ⟨_, ⟨_, [0, 1], [0, 1], set _ rfl, hx, hy, rfl, Nat.zero_le _, hd⟩, rfl⟩, rfl⟩⟩

/-- Two points at 10 and 30 degrees Celsius, or at 50 and 86 degrees Fahrenheit: the same picture. -/
example (P : PlotEnv φ) (hT : LevelsOfChars P.text) (L : Layer φ) (hp : L.palette ≠ [])
    (h10 : P.parse "10".toList = some 10) (h30 : P.parse "30".toList = some 30)
    (h50 : P.parse "50".toList = some 50) (h86 : P.parse "86".toList = some 86)
    (h2 : P.parse "2".toList = some 2) (h8 : P.parse "8".toList = some 8) :
    ∃ L', plotModule P [cmd "points" (exUnits "10" "30")] L = (L', none) ∧
    plotModule P [cmd "points" (exUnits "50" "86")] L = (L', none) := by
  obtain ⟨p, q, h⟩ := exUnits_drawn P hT L hp h10 h30 h2 h8
  refine ⟨_, h, ?_⟩
  have val : ∀ a b : String, HasValues ⟨[(false, 0), (false, 1)], [], [a.toList, b.toList]⟩ [.text a.toList, .text b.toList] :=
    fun a b => .cons (.inr ⟨rfl, _, rfl, rfl⟩) (.cons (.inr ⟨rfl, _, rfl, rfl⟩) .nil)
  refine C104_points P hT L hp _ _ _ _ (exUnits_ok P _ _ _) (exUnits_ok P _ _ _) (9 / 5) 32 (by norm_num) ?_ ?_ rfl rfl rfl _ h
  · refine ⟨_, _, val _ _, val _ _, .cons ⟨10, .inr ⟨_, rfl, by decide, h10⟩, .inr ⟨_, rfl, by decide, ?_⟩⟩
      (.cons ⟨30, .inr ⟨_, rfl, by decide, h30⟩, .inr ⟨_, rfl, by decide, ?_⟩⟩ .nil)⟩
    · rw [h50]; norm_num
    · rw [h86]; norm_num
  · have e : (exUnitsConf (φ := φ) { layer := L } "10" "30").scales.x.padding = 0 := rfl
    rw [e, mul_zero]
    rfl

end
end Clip
