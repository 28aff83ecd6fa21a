import Verif.Model.Kml

/-!
# Site files as CSV

`common/data_io/csv_library.py`: `dms_to_decimal`, `load_csv_and_validate`, `load_input_sites_from_csv_file`. A table is
given as its header and its rows of texts, as `pandas` splits the file. What `pandas` and Python do with texts is in
`Lib`. Numbers are exact; `nan` and infinities are not modelled.
-/

namespace Verif
namespace Csv

/-- The functions of `pandas` and Python on texts: whether a cell is taken for a number and which (`num`), how Python
prints the value of a cell of a column of numbers (`text`), `float` and `int` of a text, `str.strip`, `str.upper`, and
`str.strip().casefold()`. -/
structure Lib where
  num : String → Option ℚ
  text : List String → String → String
  float : String → Option ℚ
  int : String → Option Int
  strip : String → String
  upper : String → String
  norm : String → String

/-- The separators of `dms_to_decimal`, `csv_library.py:43`; of the white space only blank, tabulator and line ends. -/
def isSep (c : Char) : Bool := c = ' ' || c = '\t' || c = '\n' || c = '\r' || c = '°' || c = '\'' || c = '"'

/-- Put a character in front of the first piece. -/
def consHead (c : Char) : List (List Char) → List (List Char)
  | [] => [[c]]
  | p :: ps => (c :: p) :: ps

/-- `re.split` at runs of separators; the flag tells that a separator was just read. -/
def pieces : Bool → List Char → List (List Char)
  | _, [] => [[]]
  | b, c :: r => if isSep c then (if b then pieces true r else [] :: pieces true r) else consHead c (pieces false r)

/-- The sign of a direction, `csv_library.py:46-47`, `54`; none if it is no direction. -/
def sign (d : List Char) : Option ℚ :=
  if d = ['N'] ∨ d = ['E'] then some 1 else if d = ['S'] ∨ d = ['W'] then some (-1) else none

/-- `dms_to_decimal`, `csv_library.py:37-62`. -/
def dms (lib : Lib) (s : String) : Except Err ℚ :=
  match pieces false (lib.strip s).toList with
  | [a, d] => match sign d, lib.float (String.ofList a) with
    | some e, some x => .ok (x * e)
    | _, _ => .error .data
  | [a, b, c, d] => match sign d, lib.float (String.ofList a), lib.float (String.ofList b), lib.float (String.ofList c) with
    | some e, some x, some y, some z => .ok ((x + (y / 60 + z / 3600)) * e)
    | _, _, _, _ => .error .data
  | _ => .error .data

/-- The keys of `SiteKey.input_keys()`, `data_key.py:81-140`, `155-157`. -/
inductive Col
  | lat | lon | alt | height | name | typ | sku | subs | mode | building | loc | status
  deriving DecidableEq, Repr

/-- `input_key.value.possible_input_names`, `data_key.py:81-140`. -/
def Col.names : Col → List String
  | .lat => ["base_lat", "latitude", "lat"]
  | .lon => ["base_lon", "longitude", "lon"]
  | .alt => ["altitude", "alt"]
  | .height => ["height", "install_height", "site_height", "height_m", "height(m)", "height (m)"]
  | .name => Kml.nameNames
  | .typ => ["type", "site_type", "site type"]
  | .sku => Kml.skuNames
  | .subs => Kml.subsNames
  | .mode => Kml.modeNames
  | .building => Kml.buildingNames
  | .loc => Kml.locNames
  | .status => ["status", "status type", "status_type"]

/-- All keys, in order. -/
def Col.all : List Col := [.lat, .lon, .alt, .height, .name, .typ, .sku, .subs, .mode, .building, .loc, .status]

/-- `NUMERIC_KEYS`, `data_key.py:416-422`. -/
def Col.numeric : Col → Bool
  | .lat | .lon | .alt | .height | .subs => true
  | _ => false

/-- A table, `df`. The header is given as `pandas` has it: a name that occurs again has got a number. -/
structure Table where
  header : List String
  rows : List (List String)

/-- `required_key_lists`, `data_key.py:159-173`. -/
def required (user : Bool) : List Col := if user then [.lat, .lon] else [.name, .typ, .lat, .lon]

/-- `matched_cols`, `csv_library.py:101-104`: the acceptable names that occur. -/
def matched (lib : Lib) (t : Table) (k : Col) : List String := k.names.filter fun n => n ∈ t.header.map lib.norm

/-- The checks of the header, `csv_library.py:98-134`. No name belongs to two keys, so that the order of the renamings
does not matter. -/
def checkHeader (lib : Lib) (t : Table) (user : Bool) : Except Err Unit :=
  if Col.all.any fun k => decide (1 < (matched lib t k).length) then .error .data
  else if (required user).all fun k => decide (matched lib t k ≠ []) then .ok ()
  else .error .data

/-- The value of a cell. -/
inductive Cell
  | num (q : ℚ)
  | text (s : String)
  deriving DecidableEq, Repr

/-- The position of the column of a key. If several columns have it, which the check of the header only notices if
they are named differently, the code goes on with lists of values and fails later; the model takes the first. -/
def place (lib : Lib) (t : Table) (k : Col) : Option Nat := t.header.findIdx? fun h => k.names.contains (lib.norm h)

/-- The texts of a column. -/
def column (t : Table) (i : Nat) : List String := t.rows.map fun r => r.getD i ""

/-- The value of a cell as `pandas` reads it: a column is read as numbers if all its cells are numbers; with
`keep_default_na=False` an empty cell is a text. Columns that should not be numeric are turned into texts again,
`csv_library.py:106-108`, and stripped, `csv_library.py:153-155`. -/
def cell (lib : Lib) (t : Table) (k : Col) (r : List String) : Option Cell :=
  match place lib t k with
  | none => none
  | some i =>
    if (column t i).all fun c => (lib.num c).isSome then
      if k.numeric then (lib.num (r.getD i "")).map .num
      else some (.text (lib.strip (lib.text (column t i) (r.getD i ""))))
    else if k.numeric then some (.text (r.getD i "")) else some (.text (lib.strip (r.getD i "")))

/-- Latitude or longitude, `csv_library.py:138-146`. A missing column is rejected before. -/
def degrees (lib : Lib) : Option Cell → Except Err ℚ
  | some (.num q) => .ok q
  | some (.text s) => dms lib s
  | none => .error .keyError

/-- The number of subscribers, `csv_library.py:147-152`. -/
def subscribers (lib : Lib) : Option Cell → Except Err (Option ℚ)
  | none => .ok none
  | some (.num q) => .ok (some q)
  | some (.text s) =>
    if s = "" then .ok none
    else match lib.int s with
      | some n => .ok (some n)
      | none => .error .valueError

/-- The text of a cell. -/
def Cell.str : Cell → String
  | .text s => s
  | .num _ => ""

/-- `RawSite`, `structs.py:58-74`, as the rows of the table fill it; status and location type are always `CANDIDATE`
and `UNKNOWN`. -/
structure Row where
  typ : SiteType
  sku : Option String
  name : Option String
  lat : ℚ
  lon : ℚ
  alt : Option Cell
  height : Option Cell
  building : Option String
  subs : Option ℚ
  deriving DecidableEq, Repr

/-- `SiteType[site_type_str.upper().split(" ")[0]]`, `csv_library.py:180-189`; `POP` if there is no such column. -/
def siteTypeOf (lib : Lib) (c : Option Cell) : Except Err SiteType :=
  let w := String.ofList ((lib.upper ((c.map Cell.str).getD "POP")).toList.takeWhile (· ≠ ' '))
  if w = "POP" then .ok .pop else if w = "DN" then .ok .dn else if w = "CN" then .ok .cn else .error .data

/-- The validation of a row, `csv_library.py:137-155`: latitude, longitude and subscribers. -/
def validRow (lib : Lib) (t : Table) (r : List String) : Except Err (ℚ × ℚ × Option ℚ) :=
  match degrees lib (cell lib t .lat r) with
  | .error e => .error e
  | .ok y => match degrees lib (cell lib t .lon r) with
    | .error e => .error e
    | .ok x => match subscribers lib (cell lib t .subs r) with
      | .error e => .error e
      | .ok n => .ok (y, x, n)

/-- The site of a row, `csv_library.py:177-213`; latitude and longitude are never `None`. -/
def siteRow (lib : Lib) (t : Table) (p : List String × (ℚ × ℚ × Option ℚ)) : Except Err Row :=
  match siteTypeOf lib (cell lib t .typ p.1) with
  | .error e => .error e
  | .ok ty => .ok
    { typ := ty, sku := (cell lib t .sku p.1).map Cell.str, name := (cell lib t .name p.1).map Cell.str
      lat := p.2.1, lon := p.2.2.1, alt := cell lib t .alt p.1, height := cell lib t .height p.1
      building := (cell lib t .building p.1).map Cell.str, subs := p.2.2.2 }

/-- `load_input_sites_from_csv_file`, `csv_library.py:160-213`: the header is checked, then all rows are validated,
then the sites are made. -/
def loadSites (lib : Lib) (t : Table) (user : Bool) : Except Err (List Row) :=
  match checkHeader lib t user with
  | .error e => .error e
  | .ok _ => match t.rows.mapM (fun r => (validRow lib t r).map fun v => (r, v)) with
    | .error e => .error e
    | .ok ps => ps.mapM (siteRow lib t)

/-- `_construct_sites`, `input_sites_loader.py:132-204`, for a row of `sites.csv` of a candidate topology, whose
location type is `UNKNOWN`. Altitudes given as text are out of the model: `alt` gives the value of the altitude. -/
def construct (L : Kml.Loader) (alt : Option ℚ) (r : Row) : Except Err (List NamedSite) :=
  let site := fun (d : Device) => (if r.building ≠ none then .error .topology
    else L.site { typ := r.typ, status := .candidate, sku := r.sku, name := r.name, lat := r.lat, lon := r.lon, alt := alt
                  loc := .unknown, subs := r.subs.map fun q => q.floor.toNat } d : Except Err NamedSite)
  match r.sku with
  | some sku => match L.device sku with
    | none => .error .data
    | some d => match site d with
      | .error e => .error e
      | .ok s => .ok [s]
  | none => (L.devices.filter fun d => decide (d.deviceType = if r.typ = .cn then .cn else .dn)).mapM site

end Csv
end Verif

namespace Verif
namespace Csv

/-- The keys of `LinkKey.input_keys()`, `data_key.py:206-268`, `297-299`. -/
inductive LCol
  | tx | rx | site1 | site2 | pair | conf | typ | status
  deriving DecidableEq, Repr

/-- `input_key.value.possible_input_names`, `data_key.py:206-268`. -/
def LCol.names : LCol → List String
  | .tx => Kml.txNames
  | .rx => Kml.rxNames
  | .site1 => ["site1", "site1_id", "site1_name"]
  | .site2 => ["site2", "site2_id", "site2_name"]
  | .pair => ["site_pair", "sites"]
  | .conf => Kml.confNames
  | .typ => Kml.linkTypeNames
  | .status => ["status", "status type", "status_type"]

/-- All keys, in order. -/
def LCol.all : List LCol := [.tx, .rx, .site1, .site2, .pair, .conf, .typ, .status]

/-- `matched_cols` for links, `csv_library.py:101-104`. -/
def lmatched (lib : Lib) (t : Table) (k : LCol) : List String := k.names.filter fun n => n ∈ t.header.map lib.norm

/-- The position of the column of a key; see `place`. -/
def lplace (lib : Lib) (t : Table) (k : LCol) : Option Nat := t.header.findIdx? fun h => k.names.contains (lib.norm h)

/-- The text of a cell of a link file: none of its columns is numeric, so that it is as in `cell`. -/
def ltext (lib : Lib) (t : Table) (i : Nat) (r : List String) : String :=
  if (column t i).all fun c => (lib.num c).isSome then lib.strip (lib.text (column t i) (r.getD i ""))
  else lib.strip (r.getD i "")

/-- `str.split("-->")`, `csv_library.py:242`. -/
def splitArrow : List Char → List (List Char)
  | [] => [[]]
  | '-' :: '-' :: '>' :: r => [] :: splitArrow r
  | c :: r => consHead c (splitArrow r)

/-- The rows of a link file, `csv_library.py:235-260`: the checks of the header with `LinkKey.required_keys()`
(`data_key.py:301-307`), then the choice of the columns. -/
def linkRows (lib : Lib) (t : Table) : Except Err LinkRows :=
  if LCol.all.any fun k => decide (1 < (lmatched lib t k).length) then .error .data
  else match lplace lib t .pair with
    | some i => .ok (.arrow (t.rows.map fun r => (splitArrow (ltext lib t i r).toList).map String.ofList))
    | none => match lplace lib t .site1, lplace lib t .site2 with
      | some i, some j => .ok (.pair (t.rows.map fun r => (ltext lib t i r, ltext lib t j r)))
      | _, _ => match lplace lib t .tx, lplace lib t .rx with
        | some i, some j => .ok (.directed (t.rows.map fun r => (ltext lib t i r, ltext lib t j r)))
        | _, _ => .error .data

/-- `load_topology_link_csv`, `csv_library.py:216-261`. -/
def loadLinks (lib : Lib) (t : Table) : Except Err (List (String × String)) :=
  match linkRows lib t with
  | .error e => .error e
  | .ok R => loadRows lib.strip R

end Csv
end Verif
