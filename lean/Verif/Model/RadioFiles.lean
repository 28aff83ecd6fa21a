import Verif.Model.Csv
import Verif.Model.LinkBudget

/-!
# Files that describe radios: antenna patterns and rate tables

`common/data_io/csv_library.py:270-497`. A file is given as the rows of texts that the CSV reader returns; `Csv.Lib` has
the functions of Python on texts. Numbers are exact; `nan` and infinities are not modelled.
-/

namespace Verif
namespace RadioFiles

/-! ## Antenna patterns -/

/-- A row of the cleaned data frame, `csv_library.py:284-299`: two cells in capital letters without blanks around them.
Rows with a missing or with further cells are not modelled, nor that rows are found by label but cut by position, which
differs if an empty row was dropped. -/
abbrev Row := String × String

/-- `data[data[0] == key].index`, `csv_library.py:306`, `314-315`: the positions of the rows with a key, the first row
having position `n`. -/
def starts (key : String) : ℕ → List Row → List ℕ
  | _, [] => []
  | n, r :: rs => if r.1 = key then n :: starts key (n + 1) rs else starts key (n + 1) rs

/-- `(-1 * data.iloc[start + 1 : start + 361].astype("float")[1]).values.tolist()`, `csv_library.py:320-334`; a cell
that is no number is a `DataException`. -/
def gains (lib : Csv.Lib) (rows : List Row) (start : ℕ) : Except Err (List ℚ) :=
  ((rows.drop (start + 1)).take 360).mapM fun r =>
    match lib.float r.1, lib.float r.2 with
    | some _, some x => .ok (-1 * x)
    | _, _ => .error .data

/-- The loop over the antennas, `csv_library.py:316-336`; a missing `HORIZONTAL` or `VERTICAL` is an `IndexError`, here
`.keyError`. -/
def antennas (lib : Csv.Lib) (rows : List Row) : List ℕ → List ℕ → List ℕ → Budget.Antennas → Except Err Budget.Antennas
  | [], _, _, acc => .ok acc
  | _ :: _, [], _, _ => .error .keyError
  | _ :: _, _ :: _, [], _ => .error .keyError
  | n :: ns, h :: hs, v :: vs, acc =>
    match gains lib rows h with
    | .error e => .error e
    | .ok a =>
      match gains lib rows v with
      | .error e => .error e
      | .ok b =>
        match rows[n]? with
        | none => .error .keyError
        | some r => antennas lib rows ns hs vs (acc.set (lib.norm r.2) (a, b))

/-- `read_antenna_pattern_data`, `csv_library.py:270-337`, from the cleaned data frame. -/
def readPattern (lib : Csv.Lib) (rows : List Row) : Except Err Budget.Antennas :=
  if starts "NAME" 0 rows = [] then .error .data
  else antennas lib rows (starts "NAME" 0 rows) (starts "HORIZONTAL" 0 rows) (starts "VERTICAL" 0 rows) []

/-! ## Rate tables -/

/-- The columns of a file whose name contains `key`, `csv_library.py:420-425`. -/
def columns (names : List String) (key : String) : List ℕ :=
  (List.range names.length).filter fun i => decide (key.toList <:+: (names.getD i "").toList)

/-- The names and the rows after the column `tx_backoff` has been added if there is no such column,
`csv_library.py:398-406`. -/
def withBackoff (lib : Csv.Lib) (header : List String) (rows : List (List String)) :
    List String × List (List String) :=
  if "tx_backoff" ∈ header.map lib.norm then (header.map lib.norm, rows)
  else (header.map lib.norm ++ ["tx_backoff"], rows.map (· ++ ["0"]))

/-- The values of a row, `csv_library.py:438-450`, given the four columns. -/
def rateRow (lib : Csv.Lib) (a b c d : ℕ) (r : List String) : Except Err RawRow :=
  match lib.float (r.getD a ""), lib.float (r.getD b ""), lib.float (r.getD c ""), lib.float (r.getD d "") with
  | some x, some y, some z, some w => .ok ⟨x, y, z, w⟩
  | _, _, _, _ => .error .data

/-- `read_mcs_snr_mbps_map_data`, `csv_library.py:363-497`, from the rows of the file; 452-497 is `readRateTable`. -/
def readRates (lib : Csv.Lib) (p : SectorParams) (raw : List (List String)) : Except Err (List McsRow) :=
  match raw with
  | [] => .error .data
  | header :: rows =>
    let (names, rows) := withBackoff lib header rows
    if names.length = 4 ∧ ∀ r ∈ rows, r.length = 4 then
      match columns names "mcs", columns names "snr", columns names "mbps", columns names "tx_backoff" with
      | [a], [b], [c], [d] =>
        if a = b ∨ a = c ∨ a = d ∨ b = c ∨ b = d ∨ c = d then .error .data
        else
          match rows.mapM (rateRow lib a b c d) with
          | .error e => .error e
          | .ok raws => readRateTable p raws
      | _, _, _, _ => .error .data
    else .error .data

end RadioFiles
end Verif
