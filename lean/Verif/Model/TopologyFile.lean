import Verif.Model.Csv

/-!
# The candidate topology file as a whole: `common/data_io/utils.py:211-310`
-/

namespace Verif
namespace Csv

/-- The number in a cell. Altitudes given as text are out of the model. -/
def Cell.value : Cell → Option ℚ
  | .num q => some q
  | .text _ => none

/-- `extract_topology_from_csv_files`, `data_io/utils.py:231-267`, without `infer_input_site_location`, as for a
candidate topology (`topology_optimization.py:109-113`). The sites are constructed and added one after the other; here
all are constructed first, so that only which of several exceptions is raised may differ. -/
def fromTables (L : Kml.Loader) (lib : Lib) (sites links : Table) : Except Err Topology :=
  match loadSites lib sites false with
  | .error e => .error e
  | .ok rows => match rows.mapM (fun r => construct L (r.alt.bind Cell.value) r) with
    | .error e => .error e
    | .ok xs => match ({} : InputSites).load L.fold xs.flatten with
      | .error e => .error e
      | .ok S => match Topology.ofSites {} (S.list.map (·.site)) with
        | .error e => .error e
        | .ok _ => match loadLinks lib links with
          | .error e => .error e
          | .ok pairs => Topology.fromCsv S pairs

end Csv

/-- A file given as candidate topology: its path, what GDAL reads of it (`none` if it fails), the names in it if it is
a zip archive, and the tables called `sites.csv` and `links.csv` at its top level. -/
structure TopologyFile where
  path : String
  doc : Option Kml.Doc := none
  names : Option (List String) := none
  sites : Csv.Table := ⟨[], []⟩
  links : Csv.Table := ⟨[], []⟩

/-- `str.endswith`. -/
def endsIn (suffix s : String) : Bool := suffix.toList.isSuffixOf s.toList

/-- `extract_topology_from_file`, `data_io/utils.py:270-310`. The demand sites of a KML file are left out. An archive
that is none is rejected by `ZipFile` with `BadZipFile`, here a `valueError`. -/
def TopologyFile.load (L : Kml.Loader) (lib : Csv.Lib) (ogr : String → String) (F : TopologyFile) : Except Err Topology :=
  if endsIn ".kml" F.path || endsIn ".kmz" F.path then
    match F.doc with
    | none => .error .data
    | some d => (Kml.load L ogr d).map (·.2.1)
  else match F.names with
    | none => .error .valueError
    | some ns =>
      if ns.contains "sites.csv" && ns.contains "links.csv" then Csv.fromTables L lib F.sites F.links else .error .data

end Verif
