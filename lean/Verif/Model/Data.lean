import Verif.Model.Csv
/-!
# Model of `src/data.cc` (data buffers, grouping, loading)

`ν` is `double`.  `std::stod`, `std::to_string` and the file system are parameters.
-/
namespace Clip

/-- data.h:34-39 `struct DataBuffer`; `true` is `Type::Number`. -/
structure DataBuffer (ν : Type) where
  index : List (Bool × Nat) := []
  numeric : List ν := []
  text : List Str := []

variable {ν : Type}

/-- data.cc:26-28 `databuf_len`. -/
def databufLen (b : DataBuffer ν) : Nat := b.index.length

/-- data.cc:30-33 `databuf_add(double)`. -/
def databufAddNum (b : DataBuffer ν) (v : ν) : DataBuffer ν :=
  { b with index := b.index ++ [(true, b.numeric.length)], numeric := b.numeric ++ [v] }

/-- data.cc:35-38 `databuf_add(std::string)`. -/
def databufAddText (b : DataBuffer ν) (v : Str) : DataBuffer ν :=
  { b with index := b.index ++ [(false, b.text.length)], text := b.text ++ [v] }

/-- data.cc:40-53 `databuf_to_text`; `none` is an access outside a vector. -/
def databufToText (toString : ν → Str) (b : DataBuffer ν) : Option (List Str) :=
  b.index.mapM fun (isNum, pos) => if isNum then (b.numeric[pos]?).map toString else b.text[pos]?

/-- data.cc:55-68 `databuf_to_numbers`; `parse` is `parse_f64` (utils/algo.cc:18-24). -/
def databufToNumbers (parse : Str → ν) (b : DataBuffer ν) : Option (List ν) :=
  b.index.mapM fun (isNum, pos) => if isNum then b.numeric[pos]? else (b.text[pos]?).map parse

/-- data.h:29-32 `struct DataGroup`. -/
structure DataGroup where
  key : Str
  index : List Nat
  deriving DecidableEq, Repr

/-- data.cc:115-134 `series_group`, the loop from index `idx` on.  `map` is the
`std::unordered_map<Value, size_t>` with `operator[]` defaulting to 0. -/
def seriesGroupLoop (data : List Str) (idx : Nat) (groups : List DataGroup) (map : Str → Nat) :
    List DataGroup :=
  match data with
  | [] => groups
  | v :: rest =>
    let gi := map v
    if gi = 0 then
      let groups := groups ++ [⟨v, []⟩]
      let gi := groups.length
      seriesGroupLoop rest (idx + 1)
        (groups.modify (gi - 1) fun g => { g with index := g.index ++ [idx] })
        (fun k => if k = v then gi else map k)
    else
      seriesGroupLoop rest (idx + 1)
        (groups.modify (gi - 1) fun g => { g with index := g.index ++ [idx] }) map

/-- data.cc:115 `series_group`. -/
def seriesGroup (data : List Str) : List DataGroup := seriesGroupLoop data 0 [] fun _ => 0

/-- stringutil.cc:215-224 `StringUtil::endsWith`. -/
def endsWith (s suffix : Str) : Bool :=
  if s.length < suffix.length then false
  else (s.drop (s.length - suffix.length)).take suffix.length == suffix

inductive DataErr where
  | csv (e : CsvErr)
  | file (path : Str)
  | nargs
  | noFormat (path : Str)
  | invalidFormat (f : Str)
  | reader
  deriving DecidableEq, Repr

/-- sexpr.cc:123-125 `expr_is_list(expr, head)`, of the first element of a chain. -/
def exprIsListHead (args : List Expr) (head : Str) : Bool :=
  match args with
  | .list (e :: _) :: _ => e.isValue && e.getValue == head
  | _ => false

/-- sexpr.cc:135-145 `expr_get_list_tail` of the first element. -/
def exprListTail (args : List Expr) : List Expr :=
  match args with
  | .list (_ :: es) :: _ => es
  | _ => []

/-- csv.cc:124 `csv_parse` with the loop bound shown sufficient by C11. -/
def csvParseAll (text : Str) : Outcome CsvErr (List (List Str)) :=
  (csvParse (text.length + 1) text).getD .undefined

/-- data.cc:136-189 `data_load_strings_csv` / data.cc:234-286 `data_load_simple_csv` (the same code; the
values are collected in order): file name and column. -/
def dataLoadCsvColumn (readFile : Str → Option Str) (args : List Expr) :
    List Str × Outcome DataErr Unit :=
  match args with
  | [p, c] =>
    if p.isValue && c.isValue then
      match readFile p.getValue with
      | none => ([], .error (.file p.getValue))
      | some text =>
        match csvParseAll text with
        | .error e => ([], .error (.csv e))
        | .thrown => ([], .thrown)
        | .undefined => ([], .undefined)
        | .ok data =>
          match csvExtractColumn data c.getValue with
          | (vs, .ok _) => (vs, .ok ())
          | (vs, .error e) => (vs, .error (.csv e))
          | (vs, .thrown) => (vs, .thrown)
          | (vs, .undefined) => (vs, .undefined)
    else ([], .error .nargs)
  | _ => ([], .error .nargs)

/-- data.cc:224-232 `data_load_simple_inline`. -/
def dataLoadInline (args : List Expr) : List Str := args.map Expr.getValue

/-- data.cc:288-300 `data_load_simple` (the values added to the buffer, in order). -/
def dataLoadSimple (readFile : Str → Option Str) (args : List Expr) : List Str × Outcome DataErr Unit :=
  if exprIsListHead args "csv".toList then dataLoadCsvColumn readFile (exprListTail args)
  else if exprIsListHead args "list".toList then (dataLoadInline (exprListTail args), .ok ())
  else (dataLoadInline args, .ok ())

def databufAddTexts (b : DataBuffer ν) (vs : List Str) : DataBuffer ν := vs.foldl databufAddText b

/-- data.cc:339-353, the `on_lines` callback of `data_load_polylines2_geojson`: one polyline. -/
def onLine (st : DataBuffer ν × DataBuffer ν × List Nat) (vertices : List (ν × ν)) :
    DataBuffer ν × DataBuffer ν × List Nat :=
  let len := min (databufLen st.1) (databufLen st.2.1)
  let index := if len > 0 then st.2.2 ++ [len] else st.2.2
  vertices.foldl (fun s v => (databufAddNum s.1 v.1, databufAddNum s.2.1 v.2, s.2.2)) (st.1, st.2.1, index)

/-- data.cc:384-392: the format of a data file. -/
def detectFormat (path format : Str) : Str :=
  if format.isEmpty then
    let f := if endsWith path ".csv".toList then "csv".toList else format
    if endsWith path ".geojson".toList then "geojson".toList else f
  else format

/-- The key of a column (data.cc:311-320). -/
def columnKey (dflt : Str) (ref : Option Expr) : Str :=
  match ref with
  | some e => if e.isValue then e.getValue else dflt
  | none => dflt

/-- data.cc:367-377 (and 486-496): inline data of one axis. -/
def loadInlineRef (readFile : Str → Option Str) (ref : Option Expr) : List Str × Outcome DataErr Unit :=
  match ref with
  | some (.list l) => dataLoadSimple readFile [.list l]
  | _ => ([], .ok ())

/-- A GeoJSON reader (utils/geojson.cc), here a parameter: the polylines delivered and the result. -/
abbrev LineReader (ν : Type) := Str → List (List (ν × ν)) × Outcome DataErr Unit

/-- data.cc:358-414 `data_load_polylines2`; `data_load_polylines2_csv` (302-331) is inlined. -/
def dataLoadPolylines2 (readFile : Str → Option Str) (geojson : LineReader ν) (path format : Str)
    (refX refY : Option Expr) (x y : DataBuffer ν) (groups : List Nat) :
    (DataBuffer ν × DataBuffer ν × List Nat) × Outcome DataErr Unit :=
  match loadInlineRef readFile refX with
  | (vs, .ok _) =>
    let x := databufAddTexts x vs
    match loadInlineRef readFile refY with
    | (ws, .ok _) =>
      let y := databufAddTexts y ws
      if path.isEmpty then ((x, y, groups), .ok ())
      else
        let f := detectFormat path format
        if f.isEmpty then ((x, y, groups), .error (.noFormat path))
        else if f = "csv".toList then
          match readFile path with
          | none => ((x, y, groups), .error (.file path))
          | some text =>
            match csvParseAll text with
            | .error e => ((x, y, groups), .error (.csv e))
            | .thrown => ((x, y, groups), .thrown)
            | .undefined => ((x, y, groups), .undefined)
            | .ok data =>
              match csvExtractColumn data (columnKey "x".toList refX) with
              | (us, .error e) => ((databufAddTexts x us, y, groups), .error (.csv e))
              | (us, .thrown) => ((databufAddTexts x us, y, groups), .thrown)
              | (us, .undefined) => ((databufAddTexts x us, y, groups), .undefined)
              | (us, .ok _) =>
                let x := databufAddTexts x us
                match csvExtractColumn data (columnKey "y".toList refY) with
                | (us, .error e) => ((x, databufAddTexts y us, groups), .error (.csv e))
                | (us, .thrown) => ((x, databufAddTexts y us, groups), .thrown)
                | (us, .undefined) => ((x, databufAddTexts y us, groups), .undefined)
                | (us, .ok _) => ((x, databufAddTexts y us, groups), .ok ())
        else if f = "geojson".toList then
          match geojson path with
          | (ls, rc) => (ls.foldl onLine (x, y, groups), rc)
        else ((x, y, groups), .error (.invalidFormat f))
    | (ws, rc) => ((x, databufAddTexts y ws, groups), rc)
  | (vs, rc) => ((databufAddTexts x vs, y, groups), rc)

/-- data.cc:466-473, the `on_points` callback: one point. -/
def onPoint (st : DataBuffer ν × DataBuffer ν) (p : ν × ν) : DataBuffer ν × DataBuffer ν :=
  (databufAddNum st.1 p.1, databufAddNum st.2 p.2)

/-- data.cc:478-533 `data_load_points2`.  The body of the `csv` branch (521-523) is commented out. -/
def dataLoadPoints2 (readFile : Str → Option Str) (geojson : Str → List (ν × ν) × Outcome DataErr Unit)
    (path format : Str) (refX refY : Option Expr) (x y : DataBuffer ν) :
    (DataBuffer ν × DataBuffer ν) × Outcome DataErr Unit :=
  match loadInlineRef readFile refX with
  | (vs, .ok _) =>
    let x := databufAddTexts x vs
    match loadInlineRef readFile refY with
    | (ws, .ok _) =>
      let y := databufAddTexts y ws
      if path.isEmpty then ((x, y), .ok ())
      else
        let f := detectFormat path format
        if f.isEmpty then ((x, y), .error (.noFormat path))
        else if f = "geojson".toList then
          match geojson path with
          | (ps, rc) => (ps.foldl onPoint (x, y), rc)
        else ((x, y), .error (.invalidFormat f))
    | (ws, rc) => ((x, databufAddTexts y ws), rc)
  | (vs, rc) => ((databufAddTexts x vs, y), rc)

end Clip
