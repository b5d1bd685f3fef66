import Verif.Model.StringUtil
import Mathlib.Data.Real.Basic
import Mathlib.Analysis.SpecialFunctions.Log.Basic
import Mathlib.Analysis.SpecialFunctions.Pow.Real
import Mathlib.Algebra.Order.Floor.Defs
/-!
# Model of `src/scale.cc`

Finite doubles are real numbers.  `Arith.d` is the rounding of the result of every double operation and
`Arith.f` the conversion to `float`; `Arith.exact` is exact arithmetic.  Results that need not be finite have
type `Option ℝ`, where `none` is an infinity or NaN.  `log` and `pow` are the mathematical functions.
-/
namespace Clip
noncomputable section

/-- Rounding of double operations and conversion to float. -/
structure Arith where
  d : ℝ → ℝ
  f : ℝ → ℝ

/-- Exact arithmetic. -/
def Arith.exact : Arith := ⟨id, id⟩

/-- What is assumed of the rounding in the theorems about all roundings; IEEE 754 round-to-nearest in the absence
of overflow satisfies it. -/
structure Arith.Good (a : Arith) : Prop where
  mono : Monotone a.d
  zero : a.d 0 = 0
  one : a.d 1 = 1
  idem : ∀ x, a.d (a.d x) = a.d x

/-- scale.h:30-32 `enum class ScaleKind`. -/
inductive ScaleKind where
  | linear | logarithmic | categorical
  deriving DecidableEq, Repr

/-- scale.h:34-37 `struct ScaleLimitHints`. -/
structure LimitHints (ν : Type) where
  minValue : Option ν := none
  maxValue : Option ν := none

/-- scale.h:39-50 `struct ScaleConfig`, scale.cc:32-37 its constructor.  The limit hints, shared by all copies of
a scale in the code, are a field. -/
structure Scale where
  kind : ScaleKind := .linear
  min : Option ℝ := none
  max : Option ℝ := none
  logBase : ℝ := 10
  inverted : Bool := false
  padding : ℝ := 0
  hints : LimitHints ℝ := {}
  categories : List Str := []
  categoriesMap : Str → Option Nat := fun _ => none

/-- scale.h:52-55 `struct ScaleLayout`. -/
structure ScaleLayout where
  positions : List (Option ℝ) := []
  labels : List Str := []

/-- scale.cc:43-50 `scale_fit(scale, value)`; `gt x y` is the C++ comparison `x > y`, which for NaN is always
false. -/
def fitHints {ν : Type} (gt : ν → ν → Bool) (h : LimitHints ν) (v : ν) : LimitHints ν :=
  let h := match h.minValue with
    | none => { h with minValue := some v }
    | some m => if gt m v then { h with minValue := some v } else h
  match h.maxValue with
  | none => { h with maxValue := some v }
  | some m => if gt v m then { h with maxValue := some v } else h

/-- scale.cc:43-50 `scale_fit` on finite numbers. -/
def scaleFit (s : Scale) (v : ℝ) : Scale := { s with hints := fitHints (fun x y => decide (x > y)) s.hints v }

/-- scale.cc:74-85 `scale_min`; `min_auto` is a `float`. -/
def scaleMin (a : Arith) (s : Scale) : ℝ :=
  let auto := match s.hints.minValue with
    | some m => a.f (a.d (m - s.padding))
    | none => 0
  match s.min with
  | some m => m
  | none => auto

/-- scale.cc:87-98 `scale_max`; `max_auto` is a `float`. -/
def scaleMax (a : Arith) (s : Scale) : ℝ :=
  let auto := match s.hints.maxValue with
    | some m => a.f (a.d (m + s.padding))
    | none => 1
  match s.max with
  | some m => m
  | none => auto

/-- scale.cc:100-113 `scale_translate_linear`. -/
def translateLinear (a : Arith) (s : Scale) (v : ℝ) : Option ℝ :=
  let mn := scaleMin a s
  let mx := scaleMax a s
  if a.d (mx - mn) = 0 then none
  else
    let vt := a.d (a.d (v - mn) / a.d (mx - mn))
    some (if s.inverted then a.d (1 - vt) else vt)

/-- `x == 0 ? 0 : log(x) / log(base)` (scale.cc:126-127); `none` if not finite.  Exact arithmetic. -/
def logIn (base x : ℝ) : Option ℝ :=
  if x = 0 then some 0 else if x < 0 then none
  else if base ≤ 0 ∨ base = 1 then none else some (Real.log x / Real.log base)

/-- scale.cc:115-142 `scale_translate_log` (exact arithmetic). -/
def translateLog (a : Arith) (s : Scale) (v : ℝ) : Option ℝ :=
  if v ≤ 0 then some 0
  else
    match logIn s.logBase (scaleMin a s), logIn s.logBase (scaleMax a s), logIn s.logBase v with
    | some mn, some mx, some vf =>
      if mx - mn = 0 then none
      else
        let vt := (vf - mn) / (mx - mn)
        some (if s.inverted then 1 - vt else vt)
    | _, _, _ => none

/-- scale.cc:144-151 `scale_translate_categorical` (exact arithmetic); `std::clamp` with an empty range (no
categories) is undefined, here `none`, like a division by zero. -/
def translateCategorical (s : Scale) (index : Nat) : Option ℝ :=
  let n : ℝ := s.categories.length
  if s.categories.length = 0 then none
  else
    let i : ℝ := max 0 (Min.min (index : ℝ) (n - 1))
    if n - 1 + s.padding * 2 = 0 then none else some ((i + s.padding) / (n - 1 + s.padding * 2))

/-- scale.cc:153-168 `scale_translate`; the conversion of the value to an index truncates (line 161; undefined for
negative values). -/
def scaleTranslate (a : Arith) (s : Scale) (v : ℝ) : Option ℝ :=
  match s.kind with
  | .linear => translateLinear a s v
  | .logarithmic => translateLog a s v
  | .categorical => translateCategorical s ⌊v⌋₊

/-- scale.cc:306-315 `scale_untranslate_linear`. -/
def untranslateLinear (a : Arith) (s : Scale) (vt : ℝ) : ℝ :=
  let vt := if s.inverted then a.d (1 - vt) else vt
  a.d (scaleMin a s + a.d (a.d (scaleMax a s - scaleMin a s) * vt))

/-- scale.cc:317-329 `scale_untranslate_log` (exact arithmetic). -/
def untranslateLog (a : Arith) (s : Scale) (vt : ℝ) : Option ℝ :=
  let range := scaleMax a s - scaleMin a s
  if range ≤ 0 ∨ s.logBase ≤ 0 ∨ s.logBase = 1 then none
  else
    let rangeLog := Real.log range / Real.log s.logBase
    let vt := if s.inverted then 1 - vt else vt
    some (scaleMin a s + s.logBase ^ (vt * rangeLog))

/-- scale.cc:331-342 `scale_untranslate`. -/
def scaleUntranslate (a : Arith) (s : Scale) (v : ℝ) : Option ℝ :=
  match s.kind with
  | .linear => some (untranslateLinear a s v)
  | .logarithmic => untranslateLog a s v
  | .categorical => some 0

/-- scale.cc:396-398: `categories_map[categories[i]] = i` for all `i`. -/
def buildCategories (cats : List Str) (i : Nat) (m : Str → Option Nat) : Str → Option Nat :=
  match cats with
  | [] => m
  | c :: cs => buildCategories cs (i + 1) fun k => if k = c then some i else m k

/-- A label formatter (format.h:27 `Formatter`): tick index and text. -/
abbrev Formatter := Nat → Str → Str

/-- Result codes of the tick layouts. -/
inductive LayoutRc where
  | ok | tooManyTicks
  deriving DecidableEq, Repr

/-- scale.cc:29 `kMaxTicks`. -/
def kMaxTicks : ℝ := 8192
/-- scale.cc:30 `EPSILON`. -/
def kEpsilon : ℝ := 0.001

/-- `layout->positions.emplace_back(vp); layout->labels.emplace_back(label)`. -/
def ScaleLayout.push (l : ScaleLayout) (vp : Option ℝ) (label : Str) : ScaleLayout :=
  ⟨l.positions ++ [vp], l.labels ++ [label]⟩

/-- scale.cc:430-432, 457-459, 486-488, 512-514: the test for too many ticks.  A division by zero gives an
infinity or NaN. -/
def tooMany (a : Arith) (begin_ end_ step : ℝ) : Bool :=
  if step = 0 then decide (a.d (end_ - begin_) > 0) else decide (a.d (a.d (end_ - begin_) / step) > kMaxTicks)

/-- `vp < 0.0` (scale.cc:464, 493); false for NaN. -/
def isNegative (vp : Option ℝ) : Bool :=
  match vp with
  | some p => decide (p < 0)
  | none => false

/-- One iteration of the tick loops (scale.cc:435-439, 462-470, 491-499, 517-521); state: `v`, `idx`, the layout.
`skip` is the test for negative positions in the aligned layouts. -/
def tickStep (a : Arith) (toS : ℝ → Str) (s : Scale) (fmt : Formatter) (step end_ : ℝ) (skip : Bool)
    (st : ℝ × Nat × ScaleLayout) : (ℝ × Nat × ScaleLayout) ⊕ (ScaleLayout × LayoutRc) :=
  let (v, idx, l) := st
  if v ≤ end_ then
    let vp := scaleTranslate a s v
    if skip && isNegative vp then
      .inl (a.d (v + step), idx, l)
    else .inl (a.d (v + step), idx + 1, l.push vp (fmt idx (toS v)))
  else .inr (l, .ok)

/-- The result of a layout function, if it returns: `start` is either an immediate result or the first state of
the loop. -/
def LayoutReturns {σ : Type} (step : σ → σ ⊕ (ScaleLayout × LayoutRc)) (start : (ScaleLayout × LayoutRc) ⊕ σ)
    (r : ScaleLayout × LayoutRc) : Prop :=
  match start with
  | .inl r' => r = r'
  | .inr st => Returns step st r

/-- The layout function never returns. -/
def LayoutDiverges {σ : Type} (step : σ → σ ⊕ (ScaleLayout × LayoutRc)) (start : (ScaleLayout × LayoutRc) ⊕ σ) :
    Prop :=
  match start with
  | .inl _ => False
  | .inr st => Diverges step st

/-- scale.cc:504-524 `scale_layout_linear` up to the loop. -/
def layoutLinearStart (a : Arith) (s : Scale) (l : ScaleLayout) (step : ℝ) :
    (ScaleLayout × LayoutRc) ⊕ (ℝ × Nat × ScaleLayout) :=
  if tooMany a (scaleMin a s) (scaleMax a s) step then .inl (l, .tooManyTicks) else .inr (scaleMin a s, 0, l)

/-- scale.cc:504-524 `scale_layout_linear`. -/
def LayoutLinear (a : Arith) (toS : ℝ → Str) (s : Scale) (fmt : Formatter) (l : ScaleLayout) (step : ℝ)
    (r : ScaleLayout × LayoutRc) : Prop :=
  LayoutReturns (tickStep a toS s fmt step (scaleMax a s) false) (layoutLinearStart a s l step) r

/-- scale.cc:417-442 `scale_layout_linear_interval` up to the loop; it clears the layout first. -/
def layoutIntervalStart (a : Arith) (s : Scale) (step oBegin oEnd : ℝ) :
    (ScaleLayout × LayoutRc) ⊕ (ℝ × Nat × ScaleLayout) :=
  let begin_ := max oBegin (scaleMin a s)
  let end_ := min oEnd (scaleMax a s)
  if tooMany a begin_ end_ step then .inl ({}, .tooManyTicks) else .inr (begin_, 0, {})

/-- scale.cc:417-442 `scale_layout_linear_interval`. -/
def LayoutInterval (a : Arith) (toS : ℝ → Str) (s : Scale) (fmt : Formatter) (step oBegin oEnd : ℝ)
    (r : ScaleLayout × LayoutRc) : Prop :=
  LayoutReturns (tickStep a toS s fmt step (min oEnd (scaleMax a s)) false) (layoutIntervalStart a s step oBegin oEnd) r

/-- Truncation towards zero. -/
def truncZ (x : ℝ) : ℤ := if x ≥ 0 then ⌊x⌋ else ⌈x⌉

/-- C `fmod(x, y)` for `y ≠ 0`: the remainder with the sign of `x`. -/
def fmod (x y : ℝ) : ℝ := x - y * truncZ (x / y)

/-- scale.cc:475-502 `scale_layout_linear_align` up to the loop (exact arithmetic).  With step 0, `fmod` is NaN, so
all comparisons are false and there are no ticks. -/
def layoutAlignStart (s : Scale) (l : ScaleLayout) (step : ℝ) :
    (ScaleLayout × LayoutRc) ⊕ (ℝ × Nat × ScaleLayout) :=
  if step = 0 then .inl (l, .ok)
  else
    let begin_ := scaleMin .exact s - fmod (scaleMin .exact s) step
    if tooMany .exact begin_ (scaleMax .exact s) step then .inl (l, .tooManyTicks) else .inr (begin_, 0, l)

/-- scale.cc:475-502 `scale_layout_linear_align`. -/
def LayoutAlign (toS : ℝ → Str) (s : Scale) (fmt : Formatter) (l : ScaleLayout) (step : ℝ)
    (r : ScaleLayout × LayoutRc) : Prop :=
  LayoutReturns (tickStep .exact toS s fmt step (scaleMax .exact s) true) (layoutAlignStart s l step) r

/-- scale.cc:444-473 `scale_layout_linear_alignat` up to the loop (exact arithmetic). -/
def layoutAlignatStart (s : Scale) (l : ScaleLayout) (step align : ℝ) :
    (ScaleLayout × LayoutRc) ⊕ (ℝ × Nat × ScaleLayout) :=
  if step = 0 then .inl (l, .ok)
  else
    let begin_ := scaleMin .exact s - fmod (scaleMin .exact s) step - fmod align step
    if tooMany .exact begin_ (scaleMax .exact s) step then .inl (l, .tooManyTicks) else .inr (begin_, 0, l)

/-- scale.cc:444-473 `scale_layout_linear_alignat`. -/
def LayoutAlignat (toS : ℝ → Str) (s : Scale) (fmt : Formatter) (l : ScaleLayout) (step align : ℝ)
    (r : ScaleLayout × LayoutRc) : Prop :=
  LayoutReturns (tickStep .exact toS s fmt step (scaleMax .exact s) true) (layoutAlignatStart s l step align) r

/-- A `double` of the exponential layouts: a finite number, an infinity or NaN. -/
inductive Ext where
  | fin (x : ℝ) | posInf | negInf | nan

/-- `x < y` for a finite `y`; false for NaN. -/
def Ext.below (x : Ext) (y : ℝ) : Prop :=
  match x with
  | .fin x => x < y
  | .negInf => True
  | .posInf | .nan => False

/-- `x > y` for a finite `y`; false for NaN. -/
def Ext.above (x : Ext) (y : ℝ) : Prop :=
  match x with
  | .fin x => x > y
  | .posInf => True
  | .negInf | .nan => False

/-- `x + 1` (the increments in scale.cc:537, 575). -/
def Ext.succ (a : Arith) (x : Ext) : Ext :=
  match x with
  | .fin x => .fin (a.d (x + 1))
  | x => x

/-- The number, if it is finite. -/
def Ext.finite? (x : Ext) : Option ℝ :=
  match x with
  | .fin x => some x
  | _ => none

/-- `min == 0 ? 0 : log(min) / log(log_base)` (scale.cc:534, 570): logarithms of negative numbers are NaN, that of zero
is the negative infinity, and that of one is zero. -/
def startExponent (a : Arith) (logBase mn : ℝ) : Ext :=
  if mn = 0 then .fin 0
  else if mn < 0 ∨ logBase < 0 then .nan
  else if logBase = 0 then .fin 0
  else if logBase = 1 then (if 1 < mn then .posInf else if mn < 1 then .negInf else .nan)
  else .fin (a.d (a.d (Real.log mn) / a.d (Real.log logBase)))

/-- C `pow(base, e)` (scale.cc:537-538, 575), rounded; zero counts as positive. -/
def cPow (a : Arith) (base : ℝ) (e : Ext) : Ext :=
  match e with
  | .fin e =>
    if base = 1 ∨ e = 0 then .fin 1
    else if 0 < base then .fin (a.d (base ^ e))
    else if base = 0 then (if 0 < e then .fin 0 else .posInf)
    else if e = ⌊e⌋ then .fin (a.d (base ^ ⌊e⌋))
    else .nan
  | .posInf => if |base| = 1 then .fin 1 else if |base| < 1 then .fin 0 else .posInf
  | .negInf => if |base| = 1 then .fin 1 else if |base| < 1 then .posInf else .fin 0
  | .nan => if base = 1 then .fin 1 else .nan

open Classical in
/-- One iteration of the loop of `scale_layout_exponential` (scale.cc:573-587); state: `exp`, `idx`, the layout. -/
def expStep (a : Arith) (toS : ℝ → Str) (nan : Str) (s : Scale) (fmt : Formatter) (base : ℝ)
    (st : Ext × Nat × ScaleLayout) : (Ext × Nat × ScaleLayout) ⊕ (ScaleLayout × LayoutRc) :=
  let (e, idx, l) := st
  let v := cPow a base e
  if v.below (scaleMin a s) then .inl (e.succ a, idx, l)
  else if v.above (a.d (scaleMax a s + kEpsilon)) then .inr (l, .ok)
  else
    let label := match v.finite? with
      | some x => toS x
      | none => nan
    .inl (e.succ a, idx + 1, l.push (v.finite?.bind (scaleTranslate a s)) (fmt idx label))

/-- scale.cc:563-590 `scale_layout_exponential`. -/
def LayoutExponential (a : Arith) (toS : ℝ → Str) (nan : Str) (s : Scale) (fmt : Formatter) (l : ScaleLayout) (base : ℝ)
    (r : ScaleLayout × LayoutRc) : Prop :=
  Returns (expStep a toS nan s fmt base) (startExponent a s.logBase (scaleMin a s), 0, l) r

/-- scale.cc:548-557, the inner loop of `scale_layout_exponential_steps`: `k` sub-steps are left, `n` is
`steps - 1`; it returns `idx` and the layout. -/
def subSteps (toS : ℝ → Str) (s : Scale) (fmt : Formatter) (v vn : ℝ) (n : Nat) : Nat → Nat × ScaleLayout →
    Nat × ScaleLayout
  | 0, st => st
  | k + 1, (idx, l) =>
    let sub : ℝ := (n - (k + 1) : ℕ)
    let vs := v + sub / n * (vn - v)
    if vs > scaleMax .exact s + kEpsilon then (idx, l)
    else subSteps toS s fmt v vn n k (idx + 1, l.push (scaleTranslate .exact s vs) (fmt idx (toS v)))

/-- `steps - 1` (scale.cc:548-549) in unsigned 64 bit arithmetic: it wraps around for 0 steps. -/
@[irreducible] def stepsMinusOne (steps : Nat) : Nat := if steps = 0 then 2 ^ 64 - 1 else steps - 1

open Classical in
/-- One iteration of the loop of `scale_layout_exponential_steps` (scale.cc:536-558).  If `pow(base, exp)` is NaN it stays
NaN, so that the loop never ends; the ticks it adds are left out.  Otherwise, where the sub-steps are reached, both powers
are finite. -/
def expStepsStep (toS : ℝ → Str) (s : Scale) (fmt : Formatter) (base : ℝ) (steps : Nat)
    (st : Ext × Nat × ScaleLayout) : (Ext × Nat × ScaleLayout) ⊕ (ScaleLayout × LayoutRc) :=
  let (e, idx, l) := st
  let v := cPow .exact base e
  if v.below (scaleMin .exact s) then .inl (e.succ .exact, idx + 1, l)
  else if v.above (scaleMax .exact s + kEpsilon) then .inr (l, .ok)
  else
    match v.finite?, (cPow .exact base (e.succ .exact)).finite? with
    | some v, some vn =>
      let n := stepsMinusOne steps
      let (idx, l) := subSteps toS s fmt v vn n n (idx, l)
      .inl (e.succ .exact, idx + 1, l)
    | _, _ => .inl (e.succ .exact, idx + 1, l)

/-- scale.cc:526-561 `scale_layout_exponential_steps` (exact arithmetic). -/
def LayoutExpSteps (toS : ℝ → Str) (s : Scale) (fmt : Formatter) (l : ScaleLayout) (base : ℝ) (steps : Nat)
    (r : ScaleLayout × LayoutRc) : Prop :=
  Returns (expStepsStep toS s fmt base steps) (startExponent .exact s.logBase (scaleMin .exact s), 0, l) r

/-- scale.cc:592-608 `scale_layout_subdivide`; the position is computed in `float`. -/
def layoutSubdivide (a : Arith) (toS : Option ℝ → Str) (s : Scale) (fmt : Formatter) (divisions : Nat) :
    ScaleLayout :=
  (List.range (divisions + 1)).foldl (fun l (i : ℕ) =>
    let o := if divisions = 0 then none else some (a.f (a.f (1 / (divisions : ℝ)) * (i : ℝ)))
    l.push o (fmt i (toS (o.bind (scaleUntranslate a s))))) {}

/-- scale.cc:610-625 `scale_layout_categorical`. -/
def layoutCategorical (s : Scale) (fmt : Formatter) : ScaleLayout :=
  (List.range s.categories.length).foldl (fun l i =>
    l.push (translateCategorical s i) (fmt i (s.categories.getD i []))) {}

/-- scale.cc:627-645 `scale_layout_categorical_bounds` (exact arithmetic). -/
def layoutCategoricalBounds (s : Scale) : ScaleLayout :=
  let n := s.categories.length
  let o : ℝ := 0.5 / ((n : ℝ) - 1 + s.padding * 2)
  (List.range (n + 1)).foldl (fun l i =>
    l.push ((translateCategorical s i).map fun v => if i = n then v + o else v - o) []) {}

end
end Clip
