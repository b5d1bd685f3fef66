import Verif.Spec.Xml
import Verif.Spec.Decimal
import Verif.Model.Svg
/-!
# What an SVG document shows

The painting operations of the path elements of a document, in the order in which a viewer performs them, and what it
means that such an operation shows a path in a colour.
-/
namespace Clip.SvgDoc
open Xml

/-- One painting operation, with the attributes that control it. -/
inductive Op where
  | fill (d color opacity : Str) (crisp : Bool)
  | stroke (d color opacity width : Str) (dash : Option (Str × Str)) (crisp : Bool)

/-- The operations of an element: an SVG path is filled (unless the fill is `none`; the default is black) and then
stroked (if a stroke is given).  Opacities are 1 if not given. -/
def ops : Event → List Op
  | .empty name attrs =>
    if name = "path".toList then
      let d := (value attrs ['d']).getD []
      let crisp := value attrs "shape-rendering".toList == some "crispEdges".toList
      (if value attrs "fill".toList = some "none".toList then []
       else [.fill d ((value attrs "fill".toList).getD "#000000".toList)
              ((value attrs "fill-opacity".toList).getD ['1']) crisp]) ++
      (match value attrs "stroke".toList with
       | none => []
       | some c => [.stroke d c ((value attrs "stroke-opacity".toList).getD ['1'])
          ((value attrs "stroke-width".toList).getD ['1'])
          ((value attrs "stroke-dasharray".toList).map fun p =>
            (p, (value attrs "stroke-dashoffset".toList).getD ['0'])) crisp])
    else []
  | _ => []

/-- `s` is a number within half a thousandth of `x`, and exactly `x` if that is a whole number. -/
def Num (s : Str) (x : ℝ) : Prop :=
  (∃ z : ℤ, Decimal.IntDenotes s z ∧ (z : ℝ) = x) ∨
  ∃ v, Decimal.FixedDenotes 3 s v ∧ |v - x| ≤ 1 / 2000

/-- Texts with one blank between any two. -/
def Words (s : Str) (ts : List Str) : Prop := s = [' '].intercalate ts

/-- Numbers separated by blanks. -/
def Nums (s : Str) (xs : List ℝ) : Prop := ∃ ts, Words s ts ∧ List.Forall₂ Num ts xs

/-- Path commands, in the notation of SVG. -/
def Cmd (s : Str) : PathCmd → Prop
  | .moveTo x y => ∃ t, s = 'M' :: t ∧ Nums t [x, y]
  | .lineTo x y => ∃ t, s = 'L' :: t ∧ Nums t [x, y]
  | .quadTo cx cy x y => ∃ t, s = 'Q' :: t ∧ Nums t [cx, cy, x, y]
  | .cubicTo c1x c1y c2x c2y x y => ∃ t, s = 'C' :: t ∧ Nums t [c1x, c1y, c2x, c2y, x, y]
  | .close => s = ['Z']

/-- Path data. -/
def PathText (s : Str) (p : Path) : Prop := ∃ ts, Words s ts ∧ List.Forall₂ Cmd ts p

/-- The digits of hexadecimal numbers. -/
def hexDigits : List Char := "0123456789abcdef".toList

/-- `s` is the notation `#rrggbb` of the three bytes. -/
def HexColor (s : Str) (r g b : Nat) : Prop :=
  ∃ c1 c2 c3 c4 c5 c6, s = ['#', c1, c2, c3, c4, c5, c6] ∧
    ∃ i1 i2 i3 i4 i5 i6 : Nat, hexDigits[i1]? = some c1 ∧ hexDigits[i2]? = some c2 ∧ hexDigits[i3]? = some c3 ∧
      hexDigits[i4]? = some c4 ∧ hexDigits[i5]? = some c5 ∧ hexDigits[i6]? = some c6 ∧
      r = 16 * i1 + i2 ∧ g = 16 * i3 + i4 ∧ b = 16 * i5 + i6

/-- `n` of 255 is the intensity `x`, to less than one step, rounded down. -/
def Channel (n : Nat) (x : ℝ) : Prop := (n : ℝ) ≤ x * 255 ∧ x * 255 < n + 1

/-- `s` denotes the colour `c`. -/
def ColorText (s : Str) (c : Color) : Prop :=
  ∃ r g b, HexColor s r g b ∧ Channel r c.r ∧ Channel g c.g ∧ Channel b c.b

/-- A path of the page as seen from the top: the page's vertical axis points up, the one of SVG down. -/
noncomputable def flip (height : ℝ) : PathCmd → PathCmd
  | .moveTo x y => .moveTo x (height - y)
  | .lineTo x y => .lineTo x (height - y)
  | .quadTo cx cy x y => .quadTo cx (height - cy) x (height - y)
  | .cubicTo c1x c1y c2x c2y x y => .cubicTo c1x (height - c1y) c2x (height - c2y) x (height - y)
  | .close => .close

/-- What is to be painted. -/
inductive Paint where
  | fill (p : Path) (c : Color) (crisp : Bool)
  | stroke (p : Path) (c : Color) (width : ℝ) (dash : Option (List ℝ × ℝ)) (crisp : Bool)

/-- What a drawing command asks for, in the order documented in style.h: solid fills, hatched fills, solid strokes,
dashed strokes. -/
def paints (hatch : Path → FillHatch → Path) (c : DrawCmd) : List Paint :=
  c.style.fillSolid.map (fun f => .fill c.path f c.crisp) ++
  c.style.fillHatch.map (fun h => .fill (hatch c.path h) h.color c.crisp) ++
  c.style.strokeSolid.map (fun s => .stroke c.path s.color s.width none c.crisp) ++
  c.style.strokeDash.map (fun s => .stroke c.path s.color s.width (some (s.pattern, s.offset)) c.crisp)

/-- The operation paints this, on a page of this height. -/
def Shows (height : ℝ) : Op → Paint → Prop
  | .fill d color opacity crisp, .fill p c crisp' =>
    PathText d (p.map (flip height)) ∧ ColorText color c ∧ Num opacity c.a ∧ crisp = crisp'
  | .stroke d color opacity width dash crisp, .stroke p c w dash' crisp' =>
    PathText d (p.map (flip height)) ∧ ColorText color c ∧ Num opacity c.a ∧ Num width w ∧
      (match dash, dash' with
       | none, none => True
       | some (pat, off), some (pat', off') => Nums pat pat' ∧ Num off off'
       | _, _ => False) ∧ crisp = crisp'
  | _, _ => False

end Clip.SvgDoc
