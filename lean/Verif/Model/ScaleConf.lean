import Verif.Model.Style
import Verif.Model.Plots
import Verif.Model.Format
/-!
# Model of the configuration functions of `src/scale.cc`

Exact arithmetic.  A `ScaleLayoutFn` (a bound function) is represented by what it was built from (`TickSpec`).
-/
namespace Clip
noncomputable section

/-- data.cc:214-222 `data_load_strings` into a vector that may already hold something: the inline form replaces it
(sexpr_conv_impl.h:61-81 `expr_tov`), a CSV column is appended to it (data.cc:136-189). -/
def loadStrings (readFile : Str → Option Str) (args : List Expr) (old : List Str) : Except Fail (List Str) :=
  if exprIsListHead args "csv".toList then
    match dataLoadCsvColumn readFile (exprListTail args) with
    | (vs, .ok _) => .ok (old ++ vs)
    | (_, .error _) => .error (.error .data)
    | (_, .thrown) => .error .thrown
    | (_, .undefined) => .error .undefined
  else match exprToStrings args with
    | .ok vs => .ok vs
    | .error _ => .error (.error .expectedValue)

/-- scale.cc:385-402: the `categorical` branch; `args` is the tail of the list form.  The map is not cleared. -/
def setCategories (readFile : Str → Option Str) (args : List Expr) (s : Scale) : Scale × Option Fail :=
  match loadStrings readFile args s.categories with
  | .error f => (s, some f)
  | .ok cats => ({ s with categories := cats, categoriesMap := buildCategories cats 0 s.categoriesMap }, none)

/-- scale.cc:353-415 `scale_configure_kind`. -/
def scaleConfigureKind (stod : Str → Option (ℝ × Nat)) (readFile : Str → Option Str) :
    List Expr → Scale → Scale × Option Fail
  | [], s => (s, none)
  | e :: es, s =>
    if isWord [e] "linear".toList then scaleConfigureKind stod readFile es { s with kind := .linear }
    else if isWord [e] "log".toList || isWord [e] "logarithmic".toList then
      scaleConfigureKind stod readFile es { s with kind := .logarithmic }
    else match (isCall [e] "log".toList).orElse fun _ => isCall [e] "logarithmic".toList with
      | some args =>
        match args with
        | [] => ({ s with kind := .logarithmic }, some (.error .expectedValue))
        | a :: _ => match exprToFloat stod a with
          | .error x => ({ s with kind := .logarithmic }, some (.error (.color x)))
          | .ok b => scaleConfigureKind stod readFile es { s with kind := .logarithmic, logBase := b }
      | none =>
        if isWord [e] "invert".toList || isWord [e] "inverted".toList then
          scaleConfigureKind stod readFile es { s with inverted := true }
        else if isWord [e] "categorical".toList then
          scaleConfigureKind stod readFile es { s with kind := .categorical, padding := 0.5 }
        else match isCall [e] "categorical".toList with
          | some args =>
            match setCategories readFile args { s with kind := .categorical, padding := 0.5 } with
            | (s', none) => scaleConfigureKind stod readFile es s'
            | (s', some f) => (s', some f)
          | none => (s, some (.error .invalidValue))

/-- What a `ScaleLayoutFn` was bound to (scale.cc:654-993). -/
inductive TickSpec where
  | interval (step begin_ end_ : ℝ)
  | alignat (step align : ℝ)
  | align (step : ℝ)
  | linear (step : ℝ)
  | expSteps (base steps : ℝ)
  | exponential (base : ℝ)
  | subdivide (n : ℝ)
  | categorical
  | bounds
  | none

/-- scale.cc:654-866, the argument lists: the numbers, if there are `n` of them. -/
def tickArgs (stod : Str → Option (ℝ × Nat)) (n : Nat) (args : List Expr) : Except Fail (List ℝ) :=
  if args.length ≠ n then .error (.error .nargs)
  else match exprToFloats stod args with
    | .ok vs => .ok vs
    | .error e => .error (.error (.color e))

/-- scale.cc:838-866 `scale_configure_layout_subdivide`. -/
def tickSubdivide (stod : Str → Option (ℝ × Nat)) (args : List Expr) : Except Fail TickSpec :=
  match args with
  | [] => .ok (.subdivide 8)
  | [a] => match exprToFloat stod a with
    | .ok v => .ok (.subdivide v)
    | .error e => .error (.error (.color e))
  | _ => .error (.error .nargs)

/-- scale.cc:868-924 `scale_configure_layout` with 654-836. -/
def scaleConfigureLayout (stod : Str → Option (ℝ × Nat)) (args : List Expr) : Except Fail TickSpec :=
  match isCall args "linear".toList with
  | some as => match tickArgs stod 1 as with
    | .ok [s] => .ok (.linear s)
    | .ok _ => .error (.error .nargs)
    | .error f => .error f
  | none => match isCall args "linear-align".toList with
  | some as => match tickArgs stod 1 as with
    | .ok [s] => .ok (.align s)
    | .ok _ => .error (.error .nargs)
    | .error f => .error f
  | none => match isCall args "linear-alignat".toList with
  | some as => match tickArgs stod 2 as with
    | .ok [s, a] => .ok (.alignat s a)
    | .ok _ => .error (.error .nargs)
    | .error f => .error f
  | none => match isCall args "linear-interval".toList with
  | some as => match tickArgs stod 3 as with
    | .ok [s, b, e] => .ok (.interval s b e)
    | .ok _ => .error (.error .nargs)
    | .error f => .error f
  | none => match isCall args "exponential".toList with
  | some as => match tickArgs stod 1 as with
    | .ok [b] => .ok (.exponential b)
    | .ok _ => .error (.error .nargs)
    | .error f => .error f
  | none => match isCall args "exponential-steps".toList with
  | some as => match tickArgs stod 2 as with
    | .ok [b, n] => .ok (.expSteps b n)
    | .ok _ => .error (.error .nargs)
    | .error f => .error f
  | none => match isCall args "subdivide".toList with
  | some as => tickSubdivide stod as
  | none =>
    if isWord args "categorical".toList then .ok .categorical
    else if isWord args "categorical-bounds".toList then .ok .bounds
    else if isWord args "none".toList then .ok .none
    else .error (.error .invalidValue)

/-- scale.cc:931-951: the label placement used if none was set. -/
def defaultLabels (s : Scale) : TickSpec :=
  match s.kind with
  | .categorical => .categorical
  | .logarithmic => .exponential s.logBase
  | .linear => .subdivide 10

open Classical in
/-- scale.cc:953-989: the tick placement used if none was set; `labels` is the label placement, absent for the grid. -/
def defaultTicks (s : Scale) (labels : Option TickSpec) : TickSpec :=
  match s.kind with
  | .categorical => .bounds
  | .logarithmic => if s.logBase = 10 then .expSteps 10 10 else .exponential s.logBase
  | .linear => labels.getD (.subdivide 10)

/-- scale.cc:926-993 `scale_configure_layout_defaults`, called with both placements. -/
def layoutDefaults (s : Scale) (labels ticks : Option TickSpec) : TickSpec × TickSpec :=
  let l := labels.getD (defaultLabels s)
  (l, ticks.getD (defaultTicks s (some l)))

/-- The call of the bound function: `l` is the layout before.  The conversions of the number of steps or divisions to
an unsigned integer are undefined for negative numbers; here such a call has no result. -/
def RunTicks (toS : Option ℝ → Str) (spec : TickSpec) (s : Scale) (fmt : Formatter) (l : ScaleLayout)
    (r : ScaleLayout × LayoutRc) : Prop :=
  match spec with
  | .interval step b e => LayoutInterval .exact (fun v => toS (some v)) s fmt step b e r
  | .alignat step al => LayoutAlignat (fun v => toS (some v)) s fmt l step al r
  | .align step => LayoutAlign (fun v => toS (some v)) s fmt l step r
  | .linear step => LayoutLinear .exact (fun v => toS (some v)) s fmt l step r
  | .expSteps base n => 0 ≤ n ∧ LayoutExpSteps (fun v => toS (some v)) s fmt l base ⌊n⌋₊ r
  | .exponential base => LayoutExponential .exact (fun v => toS (some v)) (toS none) s fmt l base r
  | .subdivide n => 0 ≤ n ∧ r = (layoutSubdivide .exact toS s fmt ⌊n⌋₊, .ok)
  | .categorical => r = (layoutCategorical s fmt, .ok)
  | .bounds => r = (layoutCategoricalBounds s, .ok)
  | .none => r = (l, .ok)

open Classical in
/-- The layout after calling the bound function with an empty layout; `none` if it does not return.  The callers ignore
its return code (grid.cc:56-60, axis.cc:117, 293). -/
def runTicks (toS : Option ℝ → Str) (spec : TickSpec) (s : Scale) (fmt : Formatter) : Option ScaleLayout :=
  if h : ∃ r, RunTicks toS spec s fmt {} r then some h.choose.1 else none

/-- scale.cc:57-69: the numbers `scale_fit` looks at. -/
def fitNumbers (toS : Option ℝ → Str) (parse : Str → Option ℝ) (s : Scale) (b : DataBuffer (Option ℝ)) :
    Except Fail (List (Option ℝ)) :=
  match s.kind with
  | .categorical =>
    match databufToText toS b with
    | none => .error .undefined
    | some ts => match mapCategories s ts with
      | .ok is => .ok (is.map fun i : ℕ => some (i : ℝ))
      | .error _ => .error (.error .plot)
      | .thrown => .error .thrown
      | .undefined => .error .undefined
  | _ => match databufToNumbers parse b with
    | none => .error .undefined
    | some vs => .ok vs

/-- scale.cc:52-72 `scale_fit(scale, buffer)`.  A NaN among the numbers (a text that is no number) would become a limit
of the scale; the model has no such limits and stops with `undefined`. -/
def scaleFitBuf (toS : Option ℝ → Str) (parse : Str → Option ℝ) (b : DataBuffer (Option ℝ)) (s : Scale) :
    Scale × Option Fail :=
  match fitNumbers toS parse s b with
  | .error f => (s, some f)
  | .ok vs => match vs.mapM id with
    | none => (s, some .undefined)
    | some ns => (ns.foldl scaleFit s, none)

end
end Clip
