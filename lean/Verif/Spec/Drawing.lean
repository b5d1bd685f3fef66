import Verif.Spec.Settings
import Verif.Model.Style
/-!
# What style settings mean (specification)

Colours, sizes and numbers are what the readers of C27/C71 and C68 make of one expression.  Only the first argument of a
single-valued setting counts.
-/
namespace Clip.Drawing
open Settings
noncomputable section

variable (E : ReadEnv)

/-- The first argument is a colour. -/
def IsColor (args : List Expr) (c : Color) : Prop :=
  ∃ e rest, args = e :: rest ∧ ∀ old, exprToColor E.stod E.palette old e = .ok c

/-- The first argument is a size (a number with a unit). -/
def IsSize (args : List Expr) (v : ℝ) : Prop :=
  ∃ e rest, args = e :: rest ∧ exprToNumber E.stod (uconvSize E.size) e = .ok v

/-- The first argument is a plain number. -/
def IsNumber (args : List Expr) (v : ℝ) : Prop := ∃ e rest, args = e :: rest ∧ exprToFloat E.stod e = .ok v

/-- All arguments are sizes. -/
def AreSizes (args : List Expr) (vs : List ℝ) : Prop :=
  List.Forall₂ (fun e v => exprToNumber E.stod (uconvSize E.size) e = .ok v) args vs

/-- The expression is this word, quoted or not. -/
def IsWord (e : Expr) (w : String) : Prop := e = .literal w.toList ∨ e = .value w.toList

/-- A length in typographic points (1/72 inch) at the resolution of the layer. -/
def pt (v : ℝ) : ℝ := v * E.size.dpi / 72

/-- The settings of a hatch pattern. -/
def HatchMeans (cmds : List Expr) (h : FillHatch) : Prop :=
  (∀ c ∈ cmds, ∃ n, nameOf c = some n ∧
    ((n = "color".toList ∧ ∃ v, IsColor E (argsOf c) v) ∨
     (n ∈ ["width".toList, "stride".toList, "offset".toList] ∧ ∃ v, IsSize E (argsOf c) v) ∨
     (n = "angle".toList ∧ ∃ v, IsNumber E (argsOf c) v))) ∧
  Final (IsColor E) "color".toList cmds .black h.color ∧
  Final (IsSize E) "width".toList cmds (pt E 2) h.width ∧
  Final (IsSize E) "stride".toList cmds (pt E 6) h.stride ∧
  Final (IsNumber E) "angle".toList cmds (-45) h.angle ∧
  Final (IsSize E) "offset".toList cmds 0 h.offset

/-- The settings of a solid line. -/
def SolidMeans (cmds : List Expr) (k : StrokeSolid) : Prop :=
  (∀ c ∈ cmds, ∃ n, nameOf c = some n ∧
    ((n = "color".toList ∧ ∃ v, IsColor E (argsOf c) v) ∨ (n = "width".toList ∧ ∃ v, IsSize E (argsOf c) v))) ∧
  Final (IsColor E) "color".toList cmds .black k.color ∧
  Final (IsSize E) "width".toList cmds (pt E 1) k.width

/-- The settings of a dashed line. -/
def DashMeans (cmds : List Expr) (k : StrokeDash) : Prop :=
  (∀ c ∈ cmds, ∃ n, nameOf c = some n ∧
    ((n = "color".toList ∧ ∃ v, IsColor E (argsOf c) v) ∨
     (n ∈ ["width".toList, "offset".toList] ∧ ∃ v, IsSize E (argsOf c) v) ∨
     (n = "pattern".toList ∧ ∃ vs, AreSizes E (argsOf c) vs))) ∧
  Final (IsColor E) "color".toList cmds .black k.color ∧
  Final (IsSize E) "width".toList cmds (pt E 1) k.width ∧
  Final (AreSizes E) "pattern".toList cmds [pt E 4, pt E 4] k.pattern ∧
  Final (IsSize E) "offset".toList cmds 0 k.offset

/-- What a `fill` setting adds to the style of a shape. -/
inductive FillMeans : List Expr → Compound → Prop
  | color {args c} : IsColor E args c → FillMeans args ⟨[c], [], [], []⟩
  | solid {k args rest c} : IsWord k "solid" → IsColor E args c → FillMeans (.list (k :: args) :: rest) ⟨[c], [], [], []⟩
  | hatch {k rest h} : IsWord k "hatch" → HatchMeans E [] h → FillMeans (k :: rest) ⟨[], [h], [], []⟩
  | hatchWith {k cmds rest h} : IsWord k "hatch" → HatchMeans E cmds h →
      FillMeans (.list (k :: cmds) :: rest) ⟨[], [h], [], []⟩

/-- What a `stroke` setting adds to the style of a shape. -/
inductive StrokeMeans : List Expr → Compound → Prop
  | short {a b w c} : IsSize E [a] w → IsColor E [b] c → StrokeMeans [a, b] ⟨[], [], [⟨c, w⟩], []⟩
  | solid {k rest s} : IsWord k "solid" → SolidMeans E [] s → StrokeMeans (k :: rest) ⟨[], [], [s], []⟩
  | solidWith {k cmds rest s} : IsWord k "solid" → SolidMeans E cmds s →
      StrokeMeans (.list (k :: cmds) :: rest) ⟨[], [], [s], []⟩
  | dash {k rest s} : IsWord k "dash" → DashMeans E [] s → StrokeMeans (k :: rest) ⟨[], [], [], [s]⟩
  | dashWith {k cmds rest s} : IsWord k "dash" → DashMeans E cmds s →
      StrokeMeans (.list (k :: cmds) :: rest) ⟨[], [], [], [s]⟩

/-- Two styles, one on top of the other. -/
def both (a b : Compound) : Compound :=
  ⟨a.fillSolid ++ b.fillSolid, a.fillHatch ++ b.fillHatch, a.strokeSolid ++ b.strokeSolid, a.strokeDash ++ b.strokeDash⟩

/-- The style given by all `color`, `fill` and `stroke` settings of a block together; other settings do not matter. -/
inductive StyleMeans : List Expr → Compound → Prop
  | nil : StyleMeans [] ⟨[], [], [], []⟩
  | color {c cs v s} : nameOf c = some "color".toList → IsColor E (argsOf c) v → StyleMeans cs s →
      StyleMeans (c :: cs) (both ⟨[v], [], [], []⟩ s)
  | fill {c cs f s} : nameOf c = some "fill".toList → FillMeans E (argsOf c) f → StyleMeans cs s →
      StyleMeans (c :: cs) (both f s)
  | stroke {c cs f s} : nameOf c = some "stroke".toList → StrokeMeans E (argsOf c) f → StyleMeans cs s →
      StyleMeans (c :: cs) (both f s)
  | other {c cs s} : nameOf c ≠ some "color".toList → nameOf c ≠ some "fill".toList → nameOf c ≠ some "stroke".toList →
      StyleMeans cs s → StyleMeans (c :: cs) s

/-- Two arguments: a horizontal and a vertical length. -/
def IsPair (conv1 conv2 : UnitConvMap) (args : List Expr) (v : Vec2) : Prop :=
  ∃ a b, args = [a, b] ∧ exprToNumber E.stod conv1 a = .ok v.x ∧ exprToNumber E.stod conv2 b = .ok v.y

/-! ## Styles of the plot elements

`mm` is the length of a millimetre in device units. -/

/-- A length in a plot element style; a relative length is relative to nothing, so it is zero. -/
inductive IsLength (mm : ℝ) : Expr → ℝ → Prop
  | mk {e s v pos u f} : (e = .literal s ∨ e = .value s) → E.stod s = some (v, pos) → pos ≤ s.length →
      s.drop pos = u.toList →
      (u, f) ∈ [("", 1), ("px", 1), ("pt", E.size.dpi / 72), ("mm", mm),
        ("em", layerSize E.size.fontSize E.size.dpi), ("rem", layerSize E.size.fontSize E.size.dpi), ("%", 0), ("rel", 0)] →
      IsLength mm e (v * f)

/-- The first argument is a length. -/
def FirstLength (mm : ℝ) (args : List Expr) (v : ℝ) : Prop := ∃ e rest, args = e :: rest ∧ IsLength E mm e v

/-- The expression is this word, or a list that begins with it. -/
def Calls (args : List Expr) (w : String) : Prop :=
  ∃ k rest, IsWord k w ∧ (args = k :: rest ∨ ∃ as, args = .list (k :: as) :: rest)

/-- The expression is one of these words without settings, or a list that begins with it and has these settings. -/
def CallsWith (args : List Expr) (ws : List String) (cmds : List Expr) : Prop :=
  ∃ k rest, ∃ w ∈ ws, IsWord k w ∧ (args = k :: rest ∧ cmds = [] ∨ args = .list (k :: cmds) :: rest)

/-- What a `fill` setting of a plot element makes of the fill given before. -/
inductive FillStyleMeans (mm : ℝ) : List Expr → FillStyle → FillStyle → Prop
  | none {args f} : Calls args "none" → FillStyleMeans mm args f { f with color := none }
  | color {args c f} : IsColor E args c → FillStyleMeans mm args f { f with color := some c }
  | hatch {args cmds f c angle offset stride width} : CallsWith args ["hatch", "hatched"] cmds →
      (∀ c ∈ cmds, ∃ n, nameOf c = some n ∧
        ((n = "color".toList ∧ ∃ v, IsColor E (argsOf c) v) ∨
         (n ∈ ["width".toList, "stride".toList, "offset".toList] ∧ ∃ v, FirstLength E mm (argsOf c) v) ∨
         (n = "angle".toList ∧ ∃ v, IsNumber E (argsOf c) v))) →
      Final (IsColor E) "color".toList cmds .black c →
      Final (IsNumber E) "angle".toList cmds (-45) angle →
      Final (FirstLength E mm) "offset".toList cmds 0 offset →
      Final (FirstLength E mm) "stride".toList cmds (pt E 3) stride →
      Final (FirstLength E mm) "width".toList cmds (pt E 1) width →
      FillStyleMeans mm args f ⟨some c, some (angle, offset, stride, width)⟩

/-- What a `stroke-style` setting of a plot element makes of the stroke given before; `off` is the dash offset given
before. -/
inductive StrokeStyleMeans (mm off : ℝ) : List Expr → StrokeStyle → StrokeStyle → Prop
  | none {args k} : Calls args "none" → StrokeStyleMeans mm off args k { k with width := 0 }
  | solid {args k} : Calls args "solid" → StrokeStyleMeans mm off args k { k with dash := none }
  | dash {args cmds k offset pattern} : CallsWith args ["dash", "dashed"] cmds →
      (∀ c ∈ cmds, ∃ n, nameOf c = some n ∧
        ((n = "pattern".toList ∧ ∃ vs, List.Forall₂ (IsLength E mm) (argsOf c) vs) ∨
         (n = "offset".toList ∧ ∃ v, FirstLength E mm (argsOf c) v))) →
      Final (List.Forall₂ (IsLength E mm)) "pattern".toList cmds [pt E 2, pt E 2] pattern →
      Final (FirstLength E mm) "offset".toList cmds off offset →
      StrokeStyleMeans mm off args k { k with dash := some (offset, pattern) }

end
end Clip.Drawing
