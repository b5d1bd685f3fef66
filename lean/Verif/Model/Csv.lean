import Verif.Model.Outcome
/-!
# Model of `src/utils/csv.cc`

Index based, exactly like the code: `off` is `*offset`.  Every `input[i]` goes through `strAt`, reading
beyond the terminating NUL is the outcome `undefined`.
-/
namespace Clip

inductive CsvErr where
  | quoteStart                  -- csv.cc:24-26
  | unterminated (field : Str)  -- csv.cc:48
  | separator                   -- csv.cc:115-117
  | carriageReturn              -- csv.cc:143-146
  | columnNotFound (c : Str)    -- csv.cc:170
  | rowSize (row : Nat)         -- csv.cc:176-179
  deriving DecidableEq, Repr

theorem strAt_lt {s : Str} {i : Nat} {c : Char} (hne : i ≠ s.length) (h : strAt s i = some c) :
    i < s.length := by
  unfold strAt at h
  split at h
  · assumption
  · simp [hne] at h

/-- csv.cc:29-48, the loop of `csv_parse_field_escaped`. -/
def csvEscLoop (input : Str) (off : Nat) (field : Str) : Outcome CsvErr (Nat × Str) :=
  if hne : off = input.length then .error (.unterminated field)
  else
    match h : strAt input off with
    | none => .undefined
    | some c =>
      if off + 1 ≠ input.length ∧ c = '"' ∧ strAt input (off + 1) = some '"' then
        csvEscLoop input (off + 2) (field ++ ['"'])
      else if c = '"' then .ok (off + 1, field)
      else csvEscLoop input (off + 1) (field ++ [c])
termination_by input.length - off
decreasing_by all_goals have := strAt_lt hne h; omega

/-- csv.cc:19-49 `csv_parse_field_escaped`. -/
def csvFieldEscaped (input : Str) (off : Nat) (field : Str) : Outcome CsvErr (Nat × Str) :=
  match strAt input off with
  | none => .undefined
  | some c => if c ≠ '"' then .error .quoteStart else csvEscLoop input (off + 1) field

/-- csv.cc:51-70 `csv_parse_field_literal`. -/
def csvFieldLiteral (input : Str) (off : Nat) (field : Str) : Outcome CsvErr (Nat × Str) :=
  if hne : off = input.length then .ok (off, field)
  else
    match h : strAt input off with
    | none => .undefined
    | some c =>
      if c = '\r' ∨ c = '\n' ∨ c = ',' then .ok (off, field)
      else csvFieldLiteral input (off + 1) (field ++ [c])
termination_by input.length - off
decreasing_by all_goals have := strAt_lt hne h; omega

/-- csv.cc:72-83 `csv_parse_field`. -/
def csvField (input : Str) (off : Nat) : Outcome CsvErr (Nat × Str) :=
  match strAt input off with
  | none => .undefined
  | some c => if c = '"' then csvFieldEscaped input off [] else csvFieldLiteral input off []

/-- csv.cc:85-122 `csv_parse_record`.  The loop runs while `*offset != input.size()`; `fuel` bounds the
number of iterations, running out of it is the outcome `none` (endless loop; shown impossible in C11). -/
def csvRecord (input : Str) : Nat → Nat → List Str → Option (Outcome CsvErr (Nat × List Str))
  | 0, _, _ => none
  | fuel + 1, off, record =>
    if off = input.length then some (.ok (off, record))
    else
      match csvField input off with
      | .error e => some (.error e)
      | .thrown => some .thrown
      | .undefined => some .undefined
      | .ok (off', field) =>
        if off' = input.length then some (.ok (off', record ++ [field]))
        else
          match strAt input off' with
          | none => some .undefined
          | some c =>
            if c = '\r' ∨ c = '\n' then some (.ok (off', record ++ [field]))
            else if c = ',' then csvRecord input fuel (off' + 1) (record ++ [field])
            else some (.error .separator)

/-- csv.cc:124-157 `csv_parse`; `fuel` as above, it bounds the iterations of both loops. -/
def csvParseLoop (input : Str) : Nat → Nat → List (List Str) → Option (Outcome CsvErr (List (List Str)))
  | 0, _, _ => none
  | fuel + 1, off, output =>
    if off = input.length then some (.ok output)
    else
      match csvRecord input (fuel + 1) off [] with
      | none => none
      | some (.error e) => some (.error e)
      | some .thrown => some .thrown
      | some .undefined => some .undefined
      | some (.ok (off', record)) =>
        if off' = input.length then some (.ok (output ++ [record]))
        else
          match strAt input off' with
          | none => some .undefined
          | some c =>
            if c = '\r' then
              if off' + 1 = input.length then some (.error .carriageReturn)
              else
                match strAt input (off' + 1) with
                | none => some .undefined
                | some d =>
                  if d ≠ '\n' then some (.error .carriageReturn)
                  else csvParseLoop input fuel (off' + 2) (output ++ [record])
            else if c = '\n' then csvParseLoop input fuel (off' + 1) (output ++ [record])
            else csvParseLoop input fuel off' (output ++ [record])

/-- csv.cc:124 `csv_parse` on an empty output. -/
def csvParse (fuel : Nat) (input : Str) : Option (Outcome CsvErr (List (List Str))) :=
  csvParseLoop input fuel 0 []

/-- csv.cc:174-183, the row loop of `csv_extract_column`: `n` is the index of the row in `data`, the first
component collects the arguments of the calls to `fn`. -/
def csvColumnLoop (idx : Nat) : Nat → List (List Str) → List Str → List Str × Outcome CsvErr Unit
  | _, [], acc => (acc, .ok ())
  | n, row :: rows, acc =>
    if row.length < idx then (acc, .error (.rowSize n))
    else
      match row[idx]? with
      | none => (acc, .thrown)        -- `std::vector::at` throws std::out_of_range
      | some v => csvColumnLoop idx (n + 1) rows (acc ++ [v])

/-- csv.cc:159-186 `csv_extract_column`.  The same code is repeated at data.cc:163-188 and
data.cc:260-285. -/
def csvExtractColumn (data : List (List Str)) (column : Str) : List Str × Outcome CsvErr Unit :=
  match data with
  | [] => ([], .ok ())
  | headers :: rows =>
    match headers.idxOf? column with
    | none => ([], .error (.columnNotFound column))
    | some idx => csvColumnLoop idx 1 rows []

end Clip
