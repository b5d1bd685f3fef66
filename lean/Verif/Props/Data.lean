import Verif.Lemmas.Data
/-!
# C13, C50-C54: data buffers, grouping and data loading (`src/data.cc`)
-/
namespace Clip
open DataSpec
variable {ν : Type}

/-- C13: grouping a series.  The keys of the groups are exactly the values of the series, each once, in the
order of their first appearance; the group of a key holds exactly the indexes of its occurrences, in
increasing order. -/
theorem C13_series_group (data : List Str) :
    ((seriesGroup data).map (·.key)).Nodup ∧
    (∀ k, k ∈ (seriesGroup data).map (·.key) ↔ k ∈ data) ∧
    ((seriesGroup data).Pairwise fun g h => data.idxOf g.key < data.idxOf h.key) ∧
    (∀ g ∈ seriesGroup data, g.index = (List.range data.length).filter fun i => data[i]? = some g.key) := by
  obtain ⟨m, h⟩ := seriesGroup_inv data [] [] (fun _ => 0) ⟨by simp, by simp, by simp, by simp, by simp⟩
  exact ⟨h.keys, h.mem, h.order, h.index⟩

/-- C13: every data index occurs in exactly one group, and nothing else occurs. -/
theorem C13_partition (data : List Str) (i : Nat) :
    (i < data.length → ∃! g, g ∈ seriesGroup data ∧ i ∈ g.index) ∧
    (∀ g ∈ seriesGroup data, i ∈ g.index → i < data.length) := by
  obtain ⟨hn, hm, _, hi⟩ := C13_series_group data
  constructor
  · intro hlt
    obtain ⟨g, hg, hk⟩ := List.mem_map.1 ((hm data[i]).2 (List.getElem_mem hlt))
    refine ⟨g, ⟨hg, ?_⟩, ?_⟩
    · rw [hi g hg]
      simp [hlt, hk]
    · rintro g' ⟨hg', hi'⟩
      rw [hi g' hg'] at hi'
      have : data[i] = g'.key := by simpa [hlt] using hi'
      exact List.inj_on_of_nodup_map hn hg' hg (by rw [← this, hk])
  · intro g hg h
    rw [hi g hg] at h
    simp at h
    exact h.1

example : seriesGroup ["a".toList, "b".toList, "a".toList] = [⟨"a".toList, [0, 2]⟩, ⟨"b".toList, [1]⟩] := by
  decide

/-- C50: a data buffer delivers what was added, in the order it was added, as text and as numbers, and never
reads outside its vectors, for every mixture of numbers and texts. -/
theorem C50_databuf (toString : ν → Str) (parse : Str → ν) (ops : List (ν ⊕ Str)) :
    databufLen (ops.foldl addValue {}) = ops.length ∧
    databufToText toString (ops.foldl addValue {}) =
      some (ops.map fun | .inl v => toString v | .inr s => s) ∧
    databufToNumbers parse (ops.foldl addValue {}) =
      some (ops.map fun | .inl v => v | .inr s => parse s) := by
  have h : Holds (ops.foldl addValue ({} : DataBuffer ν)) ops := by
    simpa using holds_adds ops (holds_empty (ν := ν))
  exact ⟨h.1, holds_text h toString, holds_numbers h parse⟩

/-- C51: inline data `(list v1 ... vn)` is loaded as exactly `v1 ... vn`. -/
theorem C51_inline_list (readFile : Str → Option Str) (hd : Expr) (hv : hd.isValue = true)
    (hn : hd.getValue = "list".toList) (vs : List Expr) :
    loadInlineRef readFile (some (.list (hd :: vs))) = (vs.map Expr.getValue, .ok ()) := by
  have h1 : exprIsListHead [.list (hd :: vs)] ['c', 's', 'v'] = false := by
    simp [exprIsListHead, hv, hn]
  have h2 : exprIsListHead [.list (hd :: vs)] ['l', 'i', 's', 't'] = true := by
    simp [exprIsListHead, hv, hn]
  simp [loadInlineRef, dataLoadSimple, h1, h2, exprListTail, dataLoadInline]

/-- C51: `(csv ...)` with anything but two words (file and column) is refused, no file is read and no value added. -/
theorem C51_csv_arguments (readFile : Str → Option Str) (hd : Expr) (hv : hd.isValue = true)
    (hh : hd.getValue = "csv".toList) (args rest : List Expr)
    (h : ¬ ∃ p c, args = [p, c] ∧ p.isValue = true ∧ c.isValue = true) :
    dataLoadSimple readFile (.list (hd :: args) :: rest) = ([], .error .nargs) := by
  unfold dataLoadSimple
  have hcsv : exprIsListHead (Expr.list (hd :: args) :: rest) "csv".toList = true := by
    show (hd.isValue && hd.getValue == "csv".toList) = true
    rw [hv, hh]; simp
  rw [if_pos hcsv]
  show dataLoadCsvColumn readFile args = _
  unfold dataLoadCsvColumn
  split
  · rename_i p c
    rw [if_neg]
    intro hpc
    rw [Bool.and_eq_true] at hpc
    exact h ⟨p, c, rfl, hpc⟩
  · rfl

/-- C51: `(csv file column)` of a readable table loads exactly the column's values, in order. -/
theorem C51_csv_column (readFile : Str → Option Str) (hd p c : Expr) (hv : hd.isValue = true)
    (hh : hd.getValue = "csv".toList) (hp : p.isValue = true) (hc : c.isValue = true) (text : Str)
    (hf : readFile p.getValue = some text) (table : List (List Str)) (ht : csvParseAll text = .ok table)
    (vs : List Str) (hx : csvExtractColumn table c.getValue = (vs, .ok ())) (rest : List Expr) :
    dataLoadSimple readFile (.list [hd, p, c] :: rest) = (vs, .ok ()) := by
  unfold dataLoadSimple
  have hcsv : exprIsListHead (Expr.list [hd, p, c] :: rest) "csv".toList = true := by
    show (hd.isValue && hd.getValue == "csv".toList) = true
    rw [hv, hh]; simp
  rw [if_pos hcsv]
  show dataLoadCsvColumn readFile [p, c] = _
  simp only [dataLoadCsvColumn, hp, hc, hf, ht, hx, Bool.and_self, if_true]

example : dataLoadSimple (fun _ => none) [.list [.literal "csv".toList, .value ['f'], .list []]] = ([], .error .nargs) :=
  C51_csv_arguments _ _ rfl rfl _ _ (by rintro ⟨p, c, h, -, hc⟩; simp at h; rw [← h.2] at hc; cases hc)

/-- C51 (violated by the code): data in any other list, e.g. `(1 2 3)` or a misspelled `(lst 1 2 3)`, is neither
loaded nor refused: it becomes one empty value. -/
theorem C51_inline_other_list (readFile : Str → Option Str) (l : List Expr)
    (h : ∀ w ∈ ["csv".toList, "list".toList], ∀ es, l ≠ .literal w :: es ∧ l ≠ .value w :: es) :
    loadInlineRef readFile (some (.list l)) = ([[]], .ok ()) := by
  have key : ∀ w ∈ ["csv".toList, "list".toList], exprIsListHead [.list l] w = false := by
    intro w hw
    cases l with
    | nil => rfl
    | cons e es =>
      have := h w hw es
      cases e with
      | literal t => simpa [exprIsListHead, Expr.isValue, Expr.getValue] using this
      | value t => simpa [exprIsListHead, Expr.isValue, Expr.getValue] using this
      | list t => rfl
  have h1 := key _ (List.mem_cons_self ..)
  have h2 := key _ (List.mem_cons_of_mem _ (List.mem_cons_self ..))
  simp only [loadInlineRef, dataLoadSimple, h1, h2]
  simp [dataLoadInline, Expr.getValue]

example : ∀ w ∈ ["csv".toList, "list".toList], ∀ es : List Expr,
    [Expr.literal ['1'], .literal ['2']] ≠ .literal w :: es ∧ [Expr.literal ['1'], .literal ['2']] ≠ .value w :: es := by
  simp

/-- The format of a file is determined by its extension. -/
theorem C52_format (path base : Str) :
    (path = base ++ ".csv".toList → detectFormat path [] = "csv".toList) ∧
    (path = base ++ ".geojson".toList → detectFormat path [] = "geojson".toList) ∧
    (∀ f, f ≠ [] → detectFormat path f = f) := by
  have key : ∀ suf : Str, endsWith (base ++ suf) suf = true := by
    intro suf
    simp [endsWith]
  refine ⟨?_, ?_, ?_⟩
  · rintro rfl
    have h : endsWith (base ++ ".csv".toList) ".geojson".toList = false := by
      unfold endsWith
      split
      · rfl
      · rename_i hlen
        rw [beq_eq_false_iff_ne]
        intro h
        have h' := congrArg List.reverse h
        rw [List.take_of_length_le (by simp; omega)] at h'
        have h2 := congrArg (·.head?) h'
        simp only [List.head?_reverse, List.getLast?_drop] at h2
        split at h2
        · simp at h2
        · simp [List.getLast?_append] at h2
    simp [detectFormat, key, h] at *
  · rintro rfl
    have := key ".geojson".toList
    simp at this
    simp [detectFormat, this]
  · intro f hf
    simp [detectFormat, hf]

/-- C52: a line plot from a CSV file.  If the file is a table with the columns for x and y (by default `x` and
`y`) and no row is too short, exactly these two columns are loaded, row by row, so both have one entry per data
row. -/
theorem C52_polylines_csv (readFile : Str → Option Str) (geojson : LineReader ν) (path format text : Str)
    (refX refY : Option Expr) (headers : List Str) (rows : List (List Str)) (ix iy : Nat)
    (nx ny : Str) (hx : ColumnName "x".toList refX nx) (hy : ColumnName "y".toList refY ny)
    (hp : path ≠ []) (hf : detectFormat path format = "csv".toList) (hfile : readFile path = some text)
    (hcsv : CsvSyntax.Dialect.Table (headers :: rows) text) (hix : IsColumn headers nx ix) (hiy : IsColumn headers ny iy)
    (hrows : ∀ r ∈ rows, ix < r.length ∧ iy < r.length) (toString : ν → Str) :
    ∃ x y vx vy, dataLoadPolylines2 readFile geojson path format refX refY {} {} [] = ((x, y, []), .ok ()) ∧
      databufToText toString x = some vx ∧ databufToText toString y = some vy ∧
      vx.map some = columnOf ix rows ∧ vy.map some = columnOf iy rows := by
  have name : ∀ {d n : Str} {r : Option Expr}, ColumnName d r n → columnKey d r = n ∧ ∀ e ∈ r, e.isValue = true := by
    rintro d n r (⟨rfl, rfl⟩ | rfl | rfl)
    · exact ⟨rfl, by simp⟩
    · exact ⟨rfl, by simp [Expr.isValue]⟩
    · exact ⟨rfl, by simp [Expr.isValue]⟩
  obtain ⟨kx, hx⟩ := name hx
  obtain ⟨ky, hy⟩ := name hy
  rw [← kx] at hix
  rw [← ky] at hiy
  clear kx ky
  obtain ⟨vx, hvx, cx⟩ := column_extract hix fun r hr => (hrows r hr).1
  obtain ⟨vy, hvy, cy⟩ := column_extract hiy fun r hr => (hrows r hr).2
  have inl : ∀ r : Option Expr, (∀ e ∈ r, e.isValue = true) → loadInlineRef readFile r = ([], .ok ()) := by
    intro r hr
    cases r with
    | none => rfl
    | some e => cases e with
      | list l => simpa [Expr.isValue] using hr _ rfl
      | literal s => rfl
      | value s => rfl
  have hparse : csvParseAll text = .ok (headers :: rows) := by
    simp [csvParseAll, (C11_csv_accepts_iff text _ (text.length + 1) (by omega)).2 hcsv]
  have hpe : path.isEmpty = false := by cases path <;> simp_all
  refine ⟨databufAddTexts {} vx, databufAddTexts {} vy, vx, vy, ?_, ?_, ?_, cx, cy⟩
  · unfold dataLoadPolylines2
    simp only [inl refX hx, inl refY hy, hpe, hf, hfile, hparse, hvx, hvy]
    rfl
  · have := holds_text (holds_texts (holds_empty (ν := ν)) vx) toString
    simpa [Function.comp_def] using this
  · have := holds_text (holds_texts (holds_empty (ν := ν)) vy) toString
    simpa [Function.comp_def] using this

example : IsColumn ["y".toList, "x".toList] "x".toList 1 ∧ ColumnName "x".toList none "x".toList ∧
    CsvSyntax.Dialect.Table [["y".toList, "x".toList]] "y,x".toList :=
  ⟨⟨by decide, rfl, by decide⟩, .inl ⟨rfl, rfl⟩, .last (rs := []) (t := []) (u := ['y', ',', 'x']) .nil
    (.cons (t := ['y']) (.bare (by simp) (by simp)) (.one (.bare (by simp) (by simp)))) (by simp) (by simp)⟩

/-- C53 (violated by the code): a CSV file can be used for lines (C52) but never for points: it is refused
whatever it contains. -/
theorem C53_points_csv_refused (readFile : Str → Option Str)
    (geojson : Str → List (ν × ν) × Outcome DataErr Unit) (path format : Str) (refX refY : Option Expr)
    (hx : ∀ e ∈ refX, e.isValue = true) (hy : ∀ e ∈ refY, e.isValue = true)
    (hp : path ≠ []) (hf : detectFormat path format = "csv".toList) :
    dataLoadPoints2 readFile geojson path format refX refY {} {} =
      (({}, {}), .error (.invalidFormat "csv".toList)) := by
  have inl : ∀ r : Option Expr, (∀ e ∈ r, e.isValue = true) → loadInlineRef readFile r = ([], .ok ()) := by
    intro r hr
    cases r with
    | none => rfl
    | some e => cases e with
      | list l => simpa [Expr.isValue] using hr _ rfl
      | literal s => rfl
      | value s => rfl
  have hpe : path.isEmpty = false := by cases path <;> simp_all
  unfold dataLoadPoints2
  simp only [inl _ hx, inl _ hy, hpe, hf]
  rfl

/-- C53: inline points are loaded. -/
theorem C53_points_inline_partial (readFile : Str → Option Str)
    (geojson : Str → List (ν × ν) × Outcome DataErr Unit) (format : Str) (hx hy : Expr) (xs ys : List Expr)
    (h1 : hx.isValue = true ∧ hx.getValue = "list".toList) (h2 : hy.isValue = true ∧ hy.getValue = "list".toList)
    (parse : Str → ν) :
    ∃ x y, dataLoadPoints2 readFile geojson [] format (some (.list (hx :: xs))) (some (.list (hy :: ys))) {} {} =
        ((x, y), .ok ()) ∧
      databufToNumbers parse x = some (xs.map fun e => parse e.getValue) ∧
      databufToNumbers parse y = some (ys.map fun e => parse e.getValue) := by
  refine ⟨_, _, by
    unfold dataLoadPoints2
    rw [C51_inline_list _ _ h1.1 h1.2, C51_inline_list _ _ h2.1 h2.2]
    rfl, ?_, ?_⟩
  · have := holds_numbers (holds_texts (holds_empty (ν := ν)) (xs.map Expr.getValue)) parse
    simpa [Function.comp_def] using this
  · have := holds_numbers (holds_texts (holds_empty (ν := ν)) (ys.map Expr.getValue)) parse
    simpa [Function.comp_def] using this

/-- C54: polylines of a GeoJSON file are kept apart.  The loaded coordinates are those of the polylines one after
the other, and cutting them at the recorded positions gives back the polylines (empty ones at the beginning
excepted, which have nothing to draw). -/
theorem C54_geojson_lines (readFile : Str → Option Str) (geojson : LineReader ν) (path format : Str)
    (ls : List (List (ν × ν))) (hp : path ≠ []) (hf : detectFormat path format = "geojson".toList)
    (hg : geojson path = (ls, .ok ())) (parse : Str → ν) (hne : ls.flatten ≠ []) :
    ∃ x y cuts, dataLoadPolylines2 readFile geojson path format none none {} {} [] = ((x, y, cuts), .ok ()) ∧
      databufToNumbers parse x = some (ls.flatten.map (·.1)) ∧
      databufToNumbers parse y = some (ls.flatten.map (·.2)) ∧
      pieces cuts ls.flatten = ls.dropWhile List.isEmpty := by
  have hpe : path.isEmpty = false := by cases path <;> simp_all
  have h := lines_inv ls _ _ (linesInv_empty (ν := ν))
  simp only [List.nil_append] at h
  refine ⟨(ls.foldl onLine ({}, {}, [])).1, (ls.foldl onLine ({}, {}, [])).2.1,
    (ls.foldl onLine ({}, {}, [])).2.2, ?_, ?_, ?_, h.pieces hne⟩
  · unfold dataLoadPolylines2
    simp only [loadInlineRef, hpe, hf, hg]
    simp [databufAddTexts]
  · have := holds_numbers h.x parse
    rw [List.map_map] at this
    simpa [Function.comp_def] using this
  · have := holds_numbers h.y parse
    rw [List.map_map] at this
    simpa [Function.comp_def] using this

example : ([[(1, 2), (3, 4)], [(5, 6)]] : List (List (Nat × Nat))).flatten ≠ [] ∧
    detectFormat "a.geojson".toList [] = "geojson".toList ∧
    pieces [2] [(1, 2), (3, 4), (5, 6)] = [[(1, 2), (3, 4)], [(5, 6)]] := by decide

end Clip
