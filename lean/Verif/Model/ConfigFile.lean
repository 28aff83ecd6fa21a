import Verif.Model.ConfigDict

/-!
# Configuration files

`terragraph_planner/common/configuration/utils.py` and `terragraph_planner/data/template.yaml`. The parsers of YAML and JSON
are left out: the content of a file is a value whose keys are strings.
-/

namespace Verif

/-- `SYSTEM` of `data/template.yaml`. -/
def tplSystem : List (String × PyVal) :=
  [("OUTPUT_DIR", .str "./"), ("DEBUG_MODE", .num 0), ("LOGGER_LEVEL", .str "INFO"), ("LOG_FILE", .none),
   ("LOG_TO_STDERR", .num 1)]

/-- `DATA` of `data/template.yaml`. -/
def tplData : List (String × PyVal) :=
  [("BOUNDARY_POLYGON_FILE_PATH", .str "boundary.kml"), ("DSM_FILE_PATHS", .list [.str "dsm.tif"]),
   ("DTM_FILE_PATH", .str "dtm.tif"), ("DHM_FILE_PATH", .str "dhm.tif"),
   ("BUILDING_OUTLINE_FILE_PATH", .str "buildings.zip"), ("SITE_FILE_PATH", .str "sites.kml"),
   ("BASE_TOPOLOGY_FILE_PATH", .none)]

/-- `SITE_DETECTION` of `data/template.yaml`. -/
def tplSiteDetection : List (String × PyVal) :=
  [("DN_DEPLOYMENT", .num 1), ("DETECT_HIGHEST", .num 1), ("DETECT_CENTERS", .num 0), ("DETECT_CORNERS", .num 1),
   ("MAX_CORNER_ANGLE", .none)]

/-- `LINE_OF_SIGHT` of `data/template.yaml`. -/
def tplLineOfSight : List (String × PyVal) :=
  [("MOUNTING_HEIGHT_ABOVE_ROOFTOP", .num (3 / 2)), ("DEFAULT_POP_HEIGHT_ON_POLE", .num 5),
   ("DEFAULT_DN_HEIGHT_ON_POLE", .num 5), ("DEFAULT_CN_HEIGHT_ON_POLE", .num 5), ("MAXIMUM_LOS_DISTANCE", .num 200),
   ("MINIMUM_LOS_DISTANCE", .num 50), ("MAXIMUM_ELEVATION_SCAN_ANGLE", .num 25),
   ("MINIMUM_MCS_OF_BACKHAUL_LINKS", .none), ("MINIMUM_MCS_OF_ACCESS_LINKS", .none),
   ("USE_ELLIPSOIDAL_LOS_MODEL", .num 0), ("FRESNEL_RADIUS", .num 1), ("LOS_CONFIDENCE_THRESHOLD", .num (4 / 5)),
   ("SITE_DETECTION", .dict tplSiteDetection), ("NUM_PROCESSORS", .none)]

/-- `SECTOR_PARAMS` of `data/template.yaml`. -/
def tplSectorParams : List (String × PyVal) :=
  [("HORIZONTAL_SCAN_RANGE", .num 70), ("NUMBER_SECTORS_PER_NODE", .num 1), ("ANTENNA_BORESIGHT_GAIN", .num 30),
   ("MAXIMUM_TX_POWER", .num 16), ("MINIMUM_TX_POWER", .none), ("TX_DIVERSITY_GAIN", .num 0),
   ("RX_DIVERSITY_GAIN", .num 0), ("TX_MISCELLANEOUS_LOSS", .num 0), ("RX_MISCELLANEOUS_LOSS", .num 0),
   ("MINIMUM_MCS_LEVEL", .none), ("ANTENNA_PATTERN_FILE_PATH", .str "antenna_pattern.txt"),
   ("SCAN_PATTERN_FILE_PATH", .str "scan_pattern.csv"), ("MCS_MAP_FILE_PATH", .str "mcs_map.csv")]

/-- `DEVICE_LIST` of `data/template.yaml`. -/
def tplDeviceList : List (String × PyVal) :=
  [("DEVICE_SKU", .str "Sample DN"), ("DEVICE_TYPE", .str "DN"), ("NODE_CAPEX", .num 250),
   ("NUMBER_OF_NODES_PER_SITE", .num 4), ("SECTOR_PARAMS", .dict tplSectorParams)]

/-- `RADIO` of `data/template.yaml`. -/
def tplRadio : List (String × PyVal) :=
  [("CARRIER_FREQUENCY", .num 60000), ("NOISE_FIGURE", .num 7), ("THERMAL_NOISE_POWER", .num (-81)),
   ("MAXIMUM_EIRP", .none), ("RAIN_RATE", .num 30), ("LINK_AVAILABILITY_PERCENTAGE", .num (999 / 10)),
   ("DEVICE_LIST", .list [.dict tplDeviceList])]

/-- `FINANCIAL` of `data/template.yaml`. -/
def tplFinancial : List (String × PyVal) :=
  [("CN_SITE_CAPEX", .num 1500), ("DN_SITE_CAPEX", .num 1500), ("POP_SITE_CAPEX", .num 1500), ("BUDGET", .num 300000)]

/-- `DIMENSIONING` of `data/template.yaml`. -/
def tplDimensioning : List (String × PyVal) :=
  [("ENABLE_CN_DEMAND", .num 1), ("ENABLE_UNIFORM_DEMAND", .num 0), ("ENABLE_MANUAL_DEMAND", .num 0),
   ("DEMAND_SPACING", .num 0), ("DEMAND_CONNECTION_RADIUS", .num 0), ("DEMAND", .num (1 / 40))]

/-- `NETWORK_DESIGN` of `data/template.yaml`. -/
def tplNetworkDesign : List (String × PyVal) :=
  [("CANDIDATE_TOPOLOGY_FILE_PATH", .str "topology.kml"), ("FINANCIAL", .dict tplFinancial),
   ("DIMENSIONING", .dict tplDimensioning), ("POP_CAPACITY", .num 10), ("NUMBER_OF_EXTRA_POPS", .num 0),
   ("DN_DN_SECTOR_LIMIT", .num 2), ("DN_TOTAL_SECTOR_LIMIT", .num 15), ("MAXIMUM_NUMBER_HOPS", .num 15),
   ("DIFF_SECTOR_ANGLE_LIMIT", .num 25), ("NEAR_FAR_LENGTH_RATIO", .num 3), ("NEAR_FAR_ANGLE_LIMIT", .num 45),
   ("OVERSUBSCRIPTION", .num 1), ("NUMBER_OF_CHANNELS", .num 1), ("MAXIMIZE_COMMON_BANDWIDTH", .num 0),
   ("ALWAYS_ACTIVE_POPS", .num 1), ("ENABLE_LEGACY_REDUNDANCY_METHOD", .num 1), ("REDUNDANCY_LEVEL", .str "MEDIUM"),
   ("BACKHAUL_LINK_REDUNDANCY_RATIO", .num (1 / 5)), ("NUM_THREADS", .none), ("POP_PROPOSAL_REL_STOP", .num (-1)),
   ("MIN_COST_REL_STOP", .num (1 / 20)), ("REDUNDANCY_REL_STOP", .num (1 / 20)), ("MAX_COVERAGE_REL_STOP", .num (-1)),
   ("INTERFERENCE_REL_STOP", .num (-1)), ("POP_PROPOSAL_MAX_TIME", .num 60), ("MIN_COST_MAX_TIME", .num 60),
   ("REDUNDANCY_MAX_TIME", .num 60), ("MAX_COVERAGE_MAX_TIME", .num 60), ("INTERFERENCE_MAX_TIME", .num 60),
   ("DEMAND_SITE_MAX_TIME", .num 15), ("TOPOLOGY_ROUTING", .none), ("AVAILABILITY_SIM_TIME", .num 100),
   ("AVAILABILITY_SEED", .num 0), ("AVAILABILITY_MAX_TIME", .num 60)]

/-- `data/template.yaml`. -/
def template : List (String × PyVal) :=
  [("SYSTEM", .dict tplSystem), ("DATA", .dict tplData), ("LINE_OF_SIGHT", .dict tplLineOfSight),
   ("RADIO", .dict tplRadio), ("NETWORK_DESIGN", .dict tplNetworkDesign)]

/-! ## Typos -/

/-- The entry of the template for a key of the file, `utils.py:41-49`; `strip` is `str.strip`. If the template had two keys
that are the same without case, the last one would count. -/
def tplEntry (env : CfgEnv) (strip : String → String) (origin : List (String × PyVal)) (k : String) : Option PyVal :=
  (origin.reverse.find? fun e => env.fold e.1 = env.fold (strip k)).map (·.2)

mutual
/-- `_detect_typo(data, origin)`, `utils.py:34-58`; what is not a dictionary has no `keys` or `items`. -/
def detectTypo (env : CfgEnv) (strip : String → String) : PyVal → PyVal → Except Err Unit
  | .dict kvs => fun origin =>
    match origin with
    | .dict o => detectEntries env strip kvs o
    | _ => .error .attributeError
  | _ => fun _ => .error .attributeError
/-- The loop over the entries, `utils.py:42-58`. -/
def detectEntries (env : CfgEnv) (strip : String → String) :
    List (String × PyVal) → List (String × PyVal) → Except Err Unit
  | [] => fun _ => .ok ()
  | (k, v) :: rest => fun o =>
    match tplEntry env strip o k with
    | none => .error .config
    | some ov => (detectValue env strip v ov).bind fun _ => detectEntries env strip rest o
/-- `utils.py:50-56`: `origin_value[0]` is an error for a list without items, an empty string, `None`, numbers and
dictionaries. -/
def detectValue (env : CfgEnv) (strip : String → String) : PyVal → PyVal → Except Err Unit
  | .dict kvs => fun ov =>
    match ov with
    | .dict o => detectEntries env strip kvs o
    | _ => .error .attributeError
  | .list xs => fun ov =>
    match ov with
    | .list [] => .error .valueError
    | .list (.dict o :: _) => detectItems env strip xs o
    | .list _ => .ok ()
    | .str s => if s = "" then .error .valueError else .ok ()
    | _ => .error .valueError
  | _ => fun _ => .ok ()
/-- The items of a list, `utils.py:55-56`. -/
def detectItems (env : CfgEnv) (strip : String → String) : List PyVal → List (String × PyVal) → Except Err Unit
  | [] => fun _ => .ok ()
  | x :: rest => fun o =>
    match x with
    | .dict kvs => (detectEntries env strip kvs o).bind fun _ => detectItems env strip rest o
    | _ => .error .attributeError
end

/-! ## Objects from a file -/

/-- The names of objects, `constants.py`. -/
inductive ObjName
  | system
  | lineOfSight
  | optimization
  | data
  deriving DecidableEq

/-- `**data_dict[key]`, where only a dictionary can be unpacked. -/
def PyVal.entries : PyVal → Except Err (Dict String PyVal)
  | .dict d => .ok d
  | _ => .error .valueError

/-- `data_dict[key]`: the `KeyError` becomes a `ConfigException`, `utils.py:124-127`. -/
def sectionOf (data : Dict String PyVal) (key : String) : Except Err PyVal :=
  match data.get? key with
  | some v => .ok v
  | none => .error .config

/-- `cls.from_dict(v)`: a section that is not a dictionary has no `items`. A `KeyError` inside is an unknown name of an enum
member and becomes a `ConfigException`. -/
def Cls.fromSection (env : CfgEnv) (c : Cls) (v : PyVal) : Except Err PyVal :=
  match v with
  | .dict d =>
    match c.fromDict env d with
    | .error .keyError => .error .config
    | r => r
  | _ => .error .attributeError

/-- The part of `struct_objects_from_file` after the file is read, `utils.py:95-127`; `os.path.exists` and the check of the
file extension are left out. -/
def structObject (env : CfgEnv) (obj : ObjName) (data : Dict String PyVal) : Except Err PyVal :=
  match obj with
  | .system => Cls.system.fromSection env ((data.get? "SYSTEM").getD (.dict []))
  | .lineOfSight =>
    if data.has "RADIO" = false ∧ data.has "NETWORK_DESIGN" = false then
      (sectionOf data "LINE_OF_SIGHT").bind fun v => Cls.los.fromSection env v
    else
      (sectionOf data "LINE_OF_SIGHT").bind fun v => v.entries.bind fun a =>
      (sectionOf data "RADIO").bind fun w => w.entries.bind fun b => Cls.los.fromSection env (.dict (mergeDict a b))
  | .optimization =>
    (sectionOf data "RADIO").bind fun v => v.entries.bind fun a =>
    (sectionOf data "NETWORK_DESIGN").bind fun w => w.entries.bind fun b =>
      Cls.opt.fromSection env (.dict (mergeDict a b))
  | .data => (sectionOf data "DATA").bind fun v => Cls.gis.fromSection env v

/-- `struct_objects_from_file` of a file with this content. -/
def structObjectFromFile (env : CfgEnv) (strip : String → String) (obj : ObjName) (content : PyVal) : Except Err PyVal :=
  (detectTypo env strip content (.dict template)).bind fun _ => content.entries.bind fun d => structObject env obj d

end Verif
