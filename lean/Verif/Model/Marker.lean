import Verif.Model.Plots
/-!
# Model of `src/marker.cc`

Text of the marker table is given in Unicode code points (the code stores UTF-8).
-/
namespace Clip
noncomputable section

/-- marker.cc:21-72 `UNICODE_MARKERS`. -/
def unicodeMarkers : List (Str × Str) := [
  ("circle-bullet".toList, ['\u25c9']),
  ("circle-left".toList, ['\u25d0']),
  ("circle-right".toList, ['\u25d1']),
  ("circle-top".toList, ['\u25d3']),
  ("circle-bottom".toList, ['\u25d2']),
  ("circle-bullet-alt".toList, ['\u2b57']),
  ("circle-hatch".toList, ['\u25cd']),
  ("circle-dashed".toList, ['\u25cc']),
  ("diamond".toList, ['\u25c6']),
  ("diamond-o".toList, ['\u25c7']),
  ("diamond-bullet".toList, ['\u25c8']),
  ("diamond-left".toList, ['\u2b16']),
  ("diamond-right".toList, ['\u2b17']),
  ("diamond-top".toList, ['\u2b18']),
  ("diamond-bottom".toList, ['\u2b19']),
  ("square".toList, ['\u25a0']),
  ("square-o".toList, ['\u25a1']),
  ("square-left".toList, ['\u25e7']),
  ("square-right".toList, ['\u25e8']),
  ("square-top".toList, ['\u2b12']),
  ("square-bottom".toList, ['\u2b13']),
  ("square-diag-left".toList, ['\u25e9']),
  ("square-diag-right".toList, ['\u25ea']),
  ("square-dotted".toList, ['\u2b1a']),
  ("square-crosshair".toList, ['\u2bd0']),
  ("square-bullet".toList, ['\u25a3']),
  ("square-hatch-horiz".toList, ['\u25a4']),
  ("square-hatch-vert".toList, ['\u25a5']),
  ("square-hatch-cross".toList, ['\u25a6']),
  ("square-hatch-diag-left".toList, ['\u25a7']),
  ("square-hatch-diag-right".toList, ['\u25a8']),
  ("hexagon".toList, ['\u2b22']),
  ("hexagon-o".toList, ['\u2b21']),
  ("pentagon".toList, ['\u2b1f']),
  ("pentagon-o".toList, ['\u2b20']),
  ("compass-left".toList, ['\u2b98']),
  ("compass-right".toList, ['\u2b9a']),
  ("compass-top".toList, ['\u2b99']),
  ("compass-bottom".toList, ['\u2b9b']),
  ("triangle-left".toList, ['\u2bc7']),
  ("triangle-right".toList, ['\u2bc8']),
  ("triangle-top".toList, ['\u2bc5']),
  ("triangle-bottom".toList, ['\u2bc6']),
  ("triangle-left-o".toList, ['\u25b3']),
  ("triangle-right-o".toList, ['\u25b7']),
  ("triangle-top-o".toList, ['\u25b3']),
  ("triangle-left-half".toList, ['\u25ed']),
  ("triangle-right-half".toList, ['\u25ee']),
  ("triangle-bottom-o".toList, ['\u25bd']),
  ("triangle-dot".toList, ['\u25ec'])
]

/-- The marker functions (marker.cc:74-124). -/
inductive Marker where
  | disk
  | circle (borderWidth : ℝ)
  | unicode (text : Str)

/-- What a marker draws. -/
inductive MarkerDrawing where
  | filled (p : Path)
  | stroked (p : Path) (width : ℝ)
  | text (t : Str) (pos : Vec2) (ax : HAlign) (ay : VAlign) (fontSize : ℝ)

/-- marker.cc:74-76 `marker_create_circle`: the border width is clamped. -/
def markerCircle (borderWidth : ℝ) : Marker := .circle (clamp01 borderWidth)

/-- marker.cc:78-88, 92-102, 106-123: the marker functions. -/
def markerDraw : Marker → Vec2 → ℝ → MarkerDrawing
  | .disk, pos, size => .filled (pathAddCircle [] pos (size * 0.5))
  | .circle b, pos, size => .stroked (pathAddCircle [] pos (size * 0.5)) (size * b * 0.5)
  | .unicode u, pos, size => .text u pos .center .center (size * 1.2)

/-- `std::unordered_map::find` in the marker table (marker.cc:158). -/
def findMarker (key : Str) : List (Str × Str) → Option Str
  | [] => none
  | (k, v) :: r => if k = key then some v else findMarker key r

/-- marker.cc:126-170 `marker_configure` on a chain of expressions; `toFloat` is `expr_to_float64`.  `none` is an
error. -/
def markerConfigure (toFloat : Expr → Option ℝ) (args : List Expr) : Option Marker :=
  match args with
  | [] => none
  | e :: rest =>
    if e.isValue && e.getValue == "circle".toList then some .disk
    else if e.isValue && e.getValue == "circle-o".toList then
      match rest with
      | [] => some (markerCircle 0.2)
      | b :: _ => (toFloat b).map markerCircle
    else if e.isValue && e.getValue == "custom".toList then
      match rest with
      | [] => none
      | t :: _ => if t.isValue then some (.unicode t.getValue) else none
    else if e.isValue then (findMarker e.getValue unicodeMarkers).map .unicode
    else none

/-- marker.cc:185-192: the loop over the elements of a list; `arg` keeps its successors, so every element is
configured with the chain behind it. -/
def markerConfigureEach (toFloat : Expr → Option ℝ) : List Expr → Option (List Marker)
  | [] => some []
  | e :: es => do
    let m ← markerConfigure toFloat (e :: es)
    let ms ← markerConfigureEach toFloat es
    return m :: ms

/-- marker.cc:172-203 `marker_configure_list`. -/
def markerConfigureList (toFloat : Expr → Option ℝ) (args : List Expr) : Option (List Marker) :=
  match args with
  | .list l :: _ =>
    match l with
    | .list l0 :: rest => markerConfigureEach toFloat (.list l0 :: rest)
    | _ => (markerConfigure toFloat args).map fun m => [m]
  | _ => none

end
end Clip
