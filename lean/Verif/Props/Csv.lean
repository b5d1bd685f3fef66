import Verif.Lemmas.Csv
/-!
# C10-C12: CSV files (`src/utils/csv.cc`)

`csvParse fuel text` runs the reader for at most `fuel` rounds of each loop; `none` would be an endless
loop.  All positive statements hold for every `fuel > text.length`.
-/
namespace Clip
open CsvSyntax

/-- C10: a table written with every field quoted and every line terminated is read back unchanged. -/
theorem C10_csv_roundtrip (rows : List (List Str)) (h : ∀ r ∈ rows, r ≠ []) (fuel : Nat)
    (hf : (write rows).length < fuel) : csvParse fuel (write rows) = some (.ok rows) :=
  parse_complete (.lines (Lines.dialect (write_text rows h))) fuel hf

example : ∀ r ∈ [["a\"b".toList, ",\n".toList], [[]]], r ≠ [] := by simp

/-- C10, for every RFC 4180 way of writing the table (quoted or bare fields, LF or CRLF), if every line is
terminated or the last line does not end in an empty bare field. -/
theorem C10_csv_any_writing_partial (rows : List (List Str)) (text : Str)
    (h : Lines rows text ∨ ∃ rs r t u, rows = rs ++ [r] ∧ text = t ++ u ∧ Lines rs t ∧ RowText r u ∧
      u ≠ [] ∧ u.getLast? ≠ some ',') (fuel : Nat) (hf : text.length < fuel) :
    csvParse fuel text = some (.ok rows) := by
  rcases h with h | ⟨rs, r, t, u, rfl, rfl, h1, h2, h3, h4⟩
  · exact parse_complete (.lines (Lines.dialect h)) fuel hf
  · exact parse_complete (.last (Lines.dialect h1) (RowText.dialect h2) h3 h4) fuel hf

example : Lines [["a".toList, "b\"".toList]] ("a,\"b\"\"\"\n".toList) :=
  .cons (t := ['a', ',', '"', 'b', '"', '"', '"']) (e := ['\n'])
    (.cons (t := ['a']) (.bare (by simp)) (.one .quoted)) .lf .nil

/-- C10 (violated by the code): a legal RFC 4180 text whose unterminated last line ends in an empty bare field
is read without that field. -/
theorem C10_csv_trailing_empty_lost (rs : List (List Str)) (r : List Str) (t u : Str) (h1 : Lines rs t)
    (h2 : RowText r u) (fuel : Nat) (hf : (t ++ u ++ [',']).length < fuel) :
    TableText (rs ++ [r ++ [[]]]) (t ++ u ++ [',']) ∧
    csvParse fuel (t ++ u ++ [',']) = some (.ok (rs ++ [r])) := by
  refine ⟨?_, parse_complete (.comma (Lines.dialect h1) (RowText.dialect h2)) fuel hf⟩
  rw [List.append_assoc]
  refine .last h1 ?_
  clear hf h1
  induction h2 with
  | one h => exact .cons (ts := []) h (.one (.bare (by simp)))
  | @cons f t fs ts h _ ih =>
    have := RowText.cons h ih
    simpa using this

example : Lines [] [] ∧ RowText ["a".toList] "a".toList := ⟨.nil, .one (.bare (by simp))⟩

/-- C11: on every input the reader returns: success or a reported error, never an access outside the input,
never an endless loop. -/
theorem C11_csv_total (text : Str) (fuel : Nat) (hf : text.length < fuel) :
    (∃ rows, csvParse fuel text = some (.ok rows)) ∨ (∃ e, csvParse fuel text = some (.error e)) := by
  rcases parse_cases text with ⟨rs, h⟩ | ⟨e, h⟩
  · exact .inl ⟨rs, parse_complete h fuel hf⟩
  · exact .inr ⟨e, by simpa [csvParse] using h [] [] fuel hf⟩

/-- C11: exactly the texts of the dialect are accepted, with exactly the denoted table. -/
theorem C11_csv_accepts_iff (text : Str) (rows : List (List Str)) (fuel : Nat) (hf : text.length < fuel) :
    csvParse fuel text = some (.ok rows) ↔ Dialect.Table rows text := by
  constructor
  · intro h
    rcases parse_cases text with ⟨rs, h'⟩ | ⟨e, h'⟩
    · rw [parse_complete h' fuel hf] at h
      simp at h
      exact h ▸ h'
    · have := h' [] [] fuel hf
      simp only [List.nil_append, List.length_nil] at this
      rw [csvParse, this] at h
      simp at h
  · exact fun h => parse_complete h fuel hf

/-- Complete lines followed by complete fields (each with its comma): the position of the next field. -/
def FieldStart (p : Str) : Prop := ∃ rs t fs q, Dialect.Lines rs t ∧ Commas fs q ∧ p = t ++ q

private theorem error_at (p rest : Str) (hp : FieldStart p) (hne : rest ≠ []) (e : CsvErr)
    (h : ∀ pre acc fuel, csvRecord (pre ++ rest) (fuel + 1) pre.length acc = some (.error e))
    (fuel : Nat) (hf : (p ++ rest).length < fuel) : csvParse fuel (p ++ rest) = some (.error e) := by
  obtain ⟨rs, t, fs, q, hl, hc, rfl⟩ := hp
  obtain ⟨fuel', h1, h2⟩ := parse_lines hl [] (q ++ rest) [] fuel (by simpa using hf)
  simp only [List.nil_append, List.length_nil, Nat.zero_add] at h2
  rw [csvParse, List.append_assoc, h2]
  obtain ⟨k, rfl⟩ : ∃ k, fuel' = k + 1 := ⟨fuel' - 1, by omega⟩
  apply parse_record_error (by simp [hne])
  obtain ⟨f2, h3, h4⟩ := record_commas hc t rest [] (k + 1) h1
  rw [← List.append_assoc, h4]
  obtain ⟨k2, rfl⟩ : ∃ k, f2 = k + 1 := ⟨f2 - 1, by omega⟩
  exact h (t ++ q) _ k2

/-- C11: a quoted field that is still open at the end of the text is an error. -/
theorem C11_csv_unterminated (p g : Str) (hp : FieldStart p) (fuel : Nat)
    (hf : (p ++ '"' :: escape g).length < fuel) :
    csvParse fuel (p ++ '"' :: escape g) = some (.error (.unterminated g)) :=
  error_at p _ hp (by simp) _ (fun pre acc fuel => record_unterminated g pre acc fuel) fuel hf

/-- C11: a closing quote followed by anything but a comma or a line break is an error. -/
theorem C11_csv_stray (p g rest : Str) (c : Char) (hp : FieldStart p)
    (hc : c ≠ '"' ∧ c ≠ ',' ∧ c ≠ '\r' ∧ c ≠ '\n') (fuel : Nat)
    (hf : (p ++ ('"' :: escape g ++ ['"'] ++ c :: rest)).length < fuel) :
    csvParse fuel (p ++ ('"' :: escape g ++ ['"'] ++ c :: rest)) = some (.error .separator) := by
  refine error_at p _ hp (by simp) _ (fun pre acc fuel => ?_) fuel hf
  rw [← List.append_assoc]
  refine record_separator g pre c rest acc fuel hc.1 ?_
  rintro (h | ⟨d, ds, h, hd⟩)
  · simp at h
  · simp only [List.cons.injEq] at h
    rw [← h.1] at hd
    tauto

/-- C11: a carriage return after a line that is not followed by a newline is an error. -/
theorem C11_csv_lone_cr (rs : List (List Str)) (t u rest : Str) (r : List Str) (hl : Dialect.Lines rs t)
    (hr : Dialect.Row r u) (hn : rest.head? ≠ some '\n') (fuel : Nat)
    (hf : (t ++ (u ++ '\r' :: rest)).length < fuel) :
    csvParse fuel (t ++ (u ++ '\r' :: rest)) = some (.error .carriageReturn) := by
  obtain ⟨fuel', h1, h2⟩ := parse_lines hl [] (u ++ '\r' :: rest) [] fuel (by simpa using hf)
  simp only [List.nil_append, List.length_nil, Nat.zero_add] at h2
  rw [csvParse, h2]
  obtain ⟨k, rfl⟩ : ∃ k, fuel' = k + 1 := ⟨fuel' - 1, by omega⟩
  exact parse_cr_error hr t rest k _ hn h1

example : FieldStart ("x\ny,".toList) :=
  ⟨[[['x']]], ['x', '\n'], [['y']], ['y', ','], .cons (t := ['x']) (e := ['\n']) (ts := [])
    (.one (.bare (by simp) (by simp))) .lf .nil,
    .cons (t := ['y']) (ts := []) (.bare (by simp) (by simp)) .nil, rfl⟩

/-- C12: if the column exists and every data row is long enough, extraction delivers exactly one value per
data row, in row order: the entry below the first header with that name. -/
theorem C12_extract_column (headers : List Str) (rows : List (List Str)) (column : Str) (idx : Nat)
    (hidx : idx < headers.length) (hcol : headers[idx] = column) (hfirst : ∀ j (hj : j < idx), headers[j] ≠ column)
    (hrows : ∀ r ∈ rows, idx < r.length) :
    ∃ vs, csvExtractColumn (headers :: rows) column = (vs, .ok ()) ∧ vs.map some = rows.map (·[idx]?) := by
  have hi : headers.idxOf? column = some idx := by
    rw [List.idxOf?_eq_some_iff]
    exact ⟨hidx, hcol, fun j hj => by simpa using hfirst j hj⟩
  have key : ∀ (rows : List (List Str)) (n : Nat) (acc : List Str), (∀ r ∈ rows, idx < r.length) →
      ∃ vs, csvColumnLoop idx n rows acc = (acc ++ vs, .ok ()) ∧ vs.map some = rows.map (·[idx]?) := by
    intro rows
    induction rows with
    | nil => intro n acc _; exact ⟨[], by simp [csvColumnLoop], rfl⟩
    | cons r rs ih =>
      intro n acc h
      have hr := h r (by simp)
      obtain ⟨vs, h1, h2⟩ := ih (n + 1) (acc ++ [r[idx]]) fun r hr => h r (by simp [hr])
      refine ⟨r[idx] :: vs, ?_, by simp [h2, hr]⟩
      rw [csvColumnLoop, if_neg (by omega), List.getElem?_eq_getElem hr]
      simpa using h1
  obtain ⟨vs, h1, h2⟩ := key rows 1 [] hrows
  exact ⟨vs, by simp [csvExtractColumn, hi, h1], h2⟩

example : ∀ r ∈ [["1".toList, "2".toList], ["3".toList, "4".toList]], 1 < r.length := by simp

/-- C12: a missing column is an error (for a non-empty table). -/
theorem C12_extract_missing (headers : List Str) (rows : List (List Str)) (column : Str)
    (h : column ∉ headers) :
    csvExtractColumn (headers :: rows) column = ([], .error (.columnNotFound column)) := by
  have : headers.idxOf? column = none := by rwa [List.idxOf?_eq_none_iff]
  simp [csvExtractColumn, this]

private theorem columnLoop_prefix (idx : Nat) (pre : List (List Str)) : ∀ (rest : List (List Str)) (n : Nat)
    (acc : List Str), (∀ r ∈ pre, idx < r.length) →
    ∃ vs, vs.map some = pre.map (·[idx]?) ∧
      csvColumnLoop idx n (pre ++ rest) acc = csvColumnLoop idx (n + pre.length) rest (acc ++ vs) := by
  induction pre with
  | nil => intro rest n acc _; exact ⟨[], rfl, by simp⟩
  | cons r rs ih =>
    intro rest n acc h
    have hr := h r (by simp)
    obtain ⟨vs, h1, h2⟩ := ih rest (n + 1) (acc ++ [r[idx]]) fun r hr => h r (by simp [hr])
    refine ⟨r[idx] :: vs, by simp [h1, hr], ?_⟩
    rw [List.cons_append, csvColumnLoop, if_neg (by omega), List.getElem?_eq_getElem hr]
    simp only [h2, List.length_cons]
    simp [Nat.add_assoc, Nat.add_comm, Nat.add_left_comm]

/-- C12: a row that misses at least two entries is reported, with its row number. -/
theorem C12_extract_short_row_partial (headers : List Str) (pre post : List (List Str)) (row : List Str)
    (column : Str) (idx : Nat) (hidx : headers.idxOf? column = some idx) (hpre : ∀ r ∈ pre, idx < r.length)
    (hrow : row.length < idx) :
    (csvExtractColumn (headers :: (pre ++ row :: post)) column).2 = .error (.rowSize (pre.length + 1)) := by
  obtain ⟨vs, _, h⟩ := columnLoop_prefix idx pre (row :: post) 1 [] hpre
  simp [csvExtractColumn, hidx, h, csvColumnLoop, hrow, Nat.add_comm]

/-- C12 (violated by the code): a row that is exactly one entry too short is not reported: the bounds check
is off by one and an exception escapes. -/
theorem C12_extract_off_by_one (headers : List Str) (pre post : List (List Str)) (row : List Str)
    (column : Str) (idx : Nat) (hidx : headers.idxOf? column = some idx) (hpre : ∀ r ∈ pre, idx < r.length)
    (hrow : row.length = idx) :
    (csvExtractColumn (headers :: (pre ++ row :: post)) column).2 = .thrown := by
  obtain ⟨vs, _, h⟩ := columnLoop_prefix idx pre (row :: post) 1 [] hpre
  simp [csvExtractColumn, hidx, h, csvColumnLoop, hrow]

example : ["x".toList, "y".toList].idxOf? "y".toList = some 1 ∧ ["1".toList].length = 1 := by decide

end Clip
