import Verif.Model.Intersect
import Verif.Model.Svg
/-!
# Model of the export with its hatching: `src/graphics/export_svg.cc` and `src/graphics/shape_hatch.cc` together
-/
namespace Clip
noncomputable section

/-- shape_hatch.cc:73-79: one polygon: `moveTo` its first vertex, `lineTo` the others. -/
def hatchPolygon : List Vec2 → Path
  | [] => []
  | v :: vs => .moveTo v.x v.y :: lineTos vs

/-- export_svg.cc:225-236: the hatched path of a shape, `shape_hatch(path_to_polygon_simple(path), …)`, if it is returned and
all its coordinates are numbers. -/
def HatchPath (path : Path) (h : FillHatch) (p : Path) : Prop :=
  ∃ r : List (List Vec2), ShapeHatch (pathToPolygon path) h.angle h.offset h.stride h.width (r.map (·.map some)) ∧ p = r.flatMap hatchPolygon

/-- export_svg.cc:445-490 `export_svg` returns the document `out` (with numbers for all coordinates). -/
def ExportSvg (version : Str) (l : SvgLayer) (out : Str) : Prop :=
  ∃ hatch : Path → FillHatch → Path,
    (∀ c ∈ l.cmds, ∀ h ∈ c.style.fillHatch, HatchPath c.path h (hatch c.path h)) ∧ exportSvg version hatch l = some out

/-- export_svg.cc:302-353: hatching some shape of the picture does not end, and so the export does not. -/
def ExportHangs (l : SvgLayer) : Prop :=
  ∃ c ∈ l.cmds, ∃ h ∈ c.style.fillHatch, ShapeHatchDiverges (pathToPolygon c.path) h.angle h.offset h.stride h.width

end
end Clip
