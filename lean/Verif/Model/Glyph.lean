import Verif.Model.Path
/-!
# Model of `font_get_glyph_path` (`src/graphics/font_lookup.cc:60-237`)

FreeType itself is not modelled: the outline that it returns is the input.  Coordinates are exact.
-/
namespace Clip
noncomputable section

/-- font_lookup.cc:60 `enum class GlyphPointType`. -/
inductive GlyphPointType where
  | on
  | off2
  | off3
  deriving DecidableEq

/-- font_lookup.cc:62-65 `struct GlyphContour`: a list of these. -/
structure GlyphPoint where
  tag : GlyphPointType
  pos : Vec2

/-- The fields of `FT_Outline` that font_lookup.cc:92-129 uses: the points in 26.6 fixed point numbers, a tag for each,
and the index of the last point of each contour. -/
structure FtOutline where
  points : List (ℤ × ℤ)
  tags : List ℕ
  contours : List ℕ

/-- How `font_get_glyph_path` can end without a path: an error code, a failed assertion, or an access out of bounds. -/
inductive GlyphFail where
  | error
  | abort
  | undefined

/-- font_lookup.cc:108-121: `FT_CURVE_TAG` is the value of the two lowest bits. -/
def curveTag (tag : ℕ) : Option GlyphPointType :=
  match tag % 4 with
  | 1 => some .on
  | 0 => some .off2
  | 2 => some .off3
  | _ => none

/-- font_lookup.cc:103-125: one point. -/
def glyphPoint (o : FtOutline) (i : ℕ) : Except GlyphFail GlyphPoint :=
  match o.points[i]?, o.tags[i]? with
  | some (x, y), some t => match curveTag t with
    | none => .error .error
    | some k => .ok ⟨k, ⟨(x : ℝ) / 64, -(y : ℝ) / 64⟩⟩
  | _, _ => .error .undefined

/-- font_lookup.cc:97-129: the contours. `start` is the index of the first point of the next one. -/
def glyphContours (o : FtOutline) (start : ℕ) : List ℕ → Except GlyphFail (List (List GlyphPoint))
  | [] => .ok []
  | last :: ends => do
    let c ← (List.range' start (last + 1 - start)).mapM (glyphPoint o)
    let cs ← glyphContours o (last + 1) ends
    pure (c :: cs)

/-- vmath.cc `mul(add(p, q), 0.5)` -/
def midPoint (p q : Vec2) : Vec2 := ⟨(p.x + q.x) * 0.5, (p.y + q.y) * 0.5⟩

/-- font_lookup.cc:140-152.  The loop inserts behind the index `i`, so that it finds the new point and then the second
of the two points next. -/
def insertVirtual : List GlyphPoint → List GlyphPoint
  | a :: b :: r =>
    if a.tag = .off2 ∧ b.tag = .off2 then a :: ⟨.on, midPoint a.pos b.pos⟩ :: insertVirtual (b :: r)
    else a :: insertVirtual (b :: r)
  | l => l

/-- font_lookup.cc:154-159: the contour is not empty. -/
def startLast (c : List GlyphPoint) (h : c ≠ []) : List GlyphPoint :=
  if (c.head h).tag = .off2 ∧ (c.getLast h).tag = .on then c.getLast h :: c else c

/-- font_lookup.cc:161-169 -/
def startMiddle (c : List GlyphPoint) (h : c ≠ []) : List GlyphPoint :=
  if (c.head h).tag = .off2 ∧ (c.getLast h).tag = .off2 then
    ⟨.on, midPoint (c.head h).pos (c.getLast h).pos⟩ :: c
  else c

theorem startLast_ne (c : List GlyphPoint) (h : c ≠ []) : startLast c h ≠ [] := by
  unfold startLast; split <;> simp [h]

theorem startMiddle_ne (c : List GlyphPoint) (h : c ≠ []) : startMiddle c h ≠ [] := by
  unfold startMiddle; split <;> simp [h]

/-- font_lookup.cc:154-173: the start of the contour, and its end. The contour is not empty. -/
def closeContour (c : List GlyphPoint) (h : c ≠ []) : List GlyphPoint :=
  let e := startMiddle (startLast c h) (startLast_ne c h)
  e ++ [e.head (startMiddle_ne _ _)]

/-- font_lookup.cc:185-230: the loop, at index `i`. -/
def glyphSegments : List GlyphPoint → Path
  | ⟨.on, _⟩ :: ⟨.on, q⟩ :: r => .lineTo q.x (-q.y) :: glyphSegments (⟨.on, q⟩ :: r)
  | ⟨.on, _⟩ :: ⟨.off3, c⟩ :: ⟨.off3, d⟩ :: ⟨.on, q⟩ :: r =>
    .cubicTo c.x (-c.y) d.x (-d.y) q.x (-q.y) :: glyphSegments (⟨.on, q⟩ :: r)
  | ⟨.on, _⟩ :: ⟨.off2, c⟩ :: ⟨.on, q⟩ :: r => .quadTo c.x (-c.y) q.x (-q.y) :: glyphSegments (⟨.on, q⟩ :: r)
  | _ => []

/-- font_lookup.cc:135-233: one contour. -/
def contourPath (c : List GlyphPoint) : Except GlyphFail Path :=
  match insertVirtual c with
  | [] => .error .error
  | a :: r =>
    match closeContour (a :: r) (by simp) with
    | [] => .error .undefined
    | p :: ps =>
      if p.tag ≠ .on then .error .abort
      else .ok (.moveTo p.pos.x (-p.pos.y) :: glyphSegments (p :: ps) ++ [.close])

/-- font_lookup.cc:67-237 `font_get_glyph_path`, without the calls of FreeType. -/
def glyphOutlinePath (o : FtOutline) : Except GlyphFail Path := do
  let cs ← glyphContours o 0 o.contours
  let ps ← cs.mapM contourPath
  pure ps.flatten

end
end Clip
