import Verif.Model.Data
import Verif.Model.GeoJson
/-! # Model of the GeoJSON loaders of `src/data.cc` -/
namespace Clip
variable {ν : Type}

/-- The polylines of the `on_lines` calls, without the third coordinate (data.cc:346-349). -/
def geoLinesOf (ev : List (GeoEvent ν)) : List (List (ν × ν)) :=
  ev.flatMap fun e => match e with
    | .lines ls => ls.map (·.map fun v => (v.x, v.y))
    | _ => []

/-- The points of the `on_points` calls (data.cc:467-470). -/
def geoPointsOf (ev : List (GeoEvent ν)) : List (ν × ν) :=
  ev.flatMap fun e => match e with
    | .points ps => ps.map fun v => (v.x, v.y)
    | _ => []

/-- The result of geojson.cc:456-465 `geojson_read_file`.  A string that is not closed makes the token grow until
memory is exhausted, which throws. -/
def geoOutcome : GeoRes → Outcome DataErr Unit
  | .ok => .ok ()
  | .error => .error .reader
  | .loops => .thrown
  | .undefined => .undefined
  | .outOfFuel => .undefined

/-- data.cc:333-356 `data_load_polylines2_geojson`: the reader with its callback. -/
def geoLineReader [Zero ν] (readFile : Str → Option Str) (num : Str → Option ν) : LineReader ν := fun path =>
  match readFile path with
  | none => ([], .error (.file path))
  | some text => (geoLinesOf (geoRead num text).1, geoOutcome (geoRead num text).2)

/-- data.cc:460-476 `data_load_points2_geojson`. -/
def geoPointReader [Zero ν] (readFile : Str → Option Str) (num : Str → Option ν) (path : Str) :
    List (ν × ν) × Outcome DataErr Unit :=
  match readFile path with
  | none => ([], .error (.file path))
  | some text => (geoPointsOf (geoRead num text).1, geoOutcome (geoRead num text).2)

end Clip
