import Verif.Base
import Mathlib.Data.Rat.Defs
import Mathlib.Algebra.Order.Field.Rat
import Mathlib.Data.List.Sort

/-!
# Configuration objects as dictionaries

`terragraph_planner/common/configuration/configs.py`. Configuration objects are lists of attributes in the order of
assignment, as `__dict__` has them. `bool`, `int` and `float` are one type of numbers (`True` is 1), exact rationals.
`TypeError` is `.valueError`, a bare `Exception` is `.planner`.
-/

namespace Verif

/-- The enums among the parameters, `configs.py:43-48`. -/
inductive EnumCls
  | device
  | redundancy
  | routing
  | logger
  deriving DecidableEq, Repr

/-- The classes that derive from `ConfigParser`. -/
inductive Cls
  | sector
  | device
  | detection
  | gis
  | los
  | opt
  | system
  deriving DecidableEq, Repr

/-- A Python value. `row` is an `MCSMap`, `data` the content of a pattern file (a `dict`, compared as a whole), `dict` a
dictionary of a configuration file or of `to_dict`. -/
inductive PyVal
  | none
  | num (q : ℚ)
  | str (s : String)
  | enum (c : EnumCls) (name : String)
  | row (xs : List ℚ)
  | data (s : String)
  | list (xs : List PyVal)
  | dict (kvs : List (String × PyVal))
  | obj (c : Cls) (attrs : List (String × PyVal))

/-- What is outside of the module: `str.casefold`, `str.upper`, and the readers of the files of a sector; the reader of the
rate table gets the minimum MCS level and the minimum and maximum power of the sector as well (`csv_library.py:363-497`). -/
structure CfgEnv where
  fold : String → String
  upper : String → String
  antenna : String → Except Err String
  scan : String → Except Err String
  rates : String → PyVal → PyVal → PyVal → Except Err (List (List ℚ))
  defaultRates : List (List ℚ)

/-- Members with values, `enums.py:46-48, 63-69, 87-91, 145-148`. -/
def EnumCls.members : EnumCls → List (String × ℚ)
  | .device => [("CN", 1), ("DN", 2)]
  | .redundancy => [("NONE", 1), ("LOW", 2), ("MEDIUM", 3), ("HIGH", 4)]
  | .routing => [("SHORTEST_PATH", 1), ("MCS_COST_PATH", 2), ("DPA_PATH", 3)]
  | .logger => [("NOTSET", 0), ("DEBUG", 10), ("INFO", 20), ("WARNING", 30), ("ERROR", 40), ("CRITICAL", 50)]

/-- `EnumParser.from_string`, `enums.py:16-22`; floats are not told from integers. -/
def EnumCls.fromString (env : CfgEnv) (c : EnumCls) : PyVal → Except Err PyVal
  | .str s => if (c.members.map (·.1)).contains (env.upper s) then .ok (.enum c (env.upper s)) else .error .keyError
  | .num q =>
    match c.members.find? (fun m => m.2 = q) with
    | some m => .ok (.enum c m.1)
    | none => .error .valueError
  | _ => .error .planner

/-- Type annotation of a parameter: a number, a string, an enum, each maybe `Optional`; an object; a list of devices;
`Optional[List[Optional[str]]]`. -/
inductive Kind
  | num
  | num?
  | str
  | str?
  | enum (c : EnumCls)
  | enum? (c : EnumCls)
  | obj (c : Cls)
  | devices
  | paths?
  deriving DecidableEq

/-- A parameter of a constructor with its default value. -/
structure Param where
  name : String
  kind : Kind
  default : Option PyVal

/-- A number with default. -/
def pNum (n : String) (q : ℚ) : Param := ⟨n, .num, some (.num q)⟩
/-- An optional number, `None` by default. -/
def pNum? (n : String) : Param := ⟨n, .num?, some .none⟩
/-- An optional string, `None` by default. -/
def pStr? (n : String) : Param := ⟨n, .str?, some .none⟩

/-- The attributes of `SiteDetectionParams()`, the default value at `configs.py:445`. -/
def defaultDetection : PyVal :=
  .obj .detection [("dn_deployment", .num 1), ("detect_highest", .num 1), ("detect_centers", .num 0),
    ("detect_corners", .num 1), ("max_corner_angle", .none)]

/-- Parameters of the constructors, `configs.py:170-189, 288-294, 339-345, 360-368, 424-446, 536-586, 766-771`. -/
def Cls.params : Cls → List Param
  | .sector => [pNum "antenna_boresight_gain" 30, pNum "maximum_tx_power" 16, pNum "number_sectors_per_node" 1,
      pNum "horizontal_scan_range" 70, pNum "carrier_frequency" 60000, pNum "thermal_noise_power" (-81),
      pNum "noise_figure" 7, pNum "rain_rate" 30, pNum "link_availability_percentage" (999 / 10),
      pNum "tx_diversity_gain" 0, pNum "rx_diversity_gain" 0, pNum "tx_miscellaneous_loss" 0,
      pNum "rx_miscellaneous_loss" 0, pNum? "minimum_mcs_level", pNum? "minimum_tx_power",
      pStr? "antenna_pattern_file_path", pStr? "scan_pattern_file_path", pStr? "mcs_map_file_path"]
  | .device => [⟨"device_sku", .str, none⟩, ⟨"sector_params", .obj .sector, none⟩, pNum "node_capex" 250,
      pNum? "number_of_nodes_per_site", ⟨"device_type", .enum .device, some (.enum .device "DN")⟩]
  | .detection => [pNum "dn_deployment" 1, pNum "detect_highest" 1, pNum "detect_centers" 0, pNum "detect_corners" 1,
      pNum? "max_corner_angle"]
  | .gis => [⟨"boundary_polygon_file_path", .str, none⟩, pStr? "building_outline_file_path",
      ⟨"dsm_file_paths", .paths?, some .none⟩, pStr? "dtm_file_path", pStr? "dhm_file_path", pStr? "site_file_path",
      pStr? "base_topology_file_path"]
  | .los => [⟨"device_list", .devices, none⟩, pNum? "minimum_mcs_of_backhaul_links", pNum? "minimum_mcs_of_access_links",
      pNum? "maximum_eirp", pNum "rain_rate" 30, pNum "link_availability_percentage" (999 / 10),
      ⟨"maximum_los_distance", .num?, some (.num 200)⟩, pNum "minimum_los_distance" 50,
      pNum "maximum_elevation_scan_angle" 25, pNum "carrier_frequency" 60000, pNum "thermal_noise_power" (-81),
      pNum "noise_figure" 7, pNum "mounting_height_above_rooftop" (3 / 2), pNum "default_dn_height_on_pole" 5,
      pNum "default_cn_height_on_pole" 5, pNum "default_pop_height_on_pole" 5, pNum "use_ellipsoidal_los_model" 0,
      pNum "fresnel_radius" 1, pNum "los_confidence_threshold" (4 / 5),
      ⟨"site_detection", .obj .detection, some defaultDetection⟩, pNum? "num_processors"]
  | .opt => [⟨"device_list", .devices, none⟩, pNum "pop_site_capex" 1500, pNum "cn_site_capex" 1500,
      pNum "dn_site_capex" 1500, pNum "rain_rate" 30, pNum "budget" 300000, pNum "pop_capacity" 10,
      pNum "oversubscription" 1, pNum "carrier_frequency" 60000, pNum "thermal_noise_power" (-81), pNum "noise_figure" 7,
      pNum "link_availability_percentage" (999 / 10), pNum? "maximum_eirp", pNum "number_of_extra_pops" 0,
      pNum "enable_cn_demand" 1, pNum "enable_uniform_demand" 0, pNum "enable_manual_demand" 0, pNum "demand_spacing" 0,
      pNum "demand_connection_radius" 0, pNum "demand" (25 / 1000), pNum "dn_dn_sector_limit" 2,
      pNum "dn_total_sector_limit" 15, pNum "maximum_number_hops" 15, pNum "diff_sector_angle_limit" 25,
      pNum "near_far_length_ratio" 3, pNum "near_far_angle_limit" 45, pNum "number_of_channels" 1,
      pNum "maximize_common_bandwidth" 0, pNum "always_active_pops" 1, pNum "enable_legacy_redundancy_method" 1,
      ⟨"redundancy_level", .enum .redundancy, some (.enum .redundancy "MEDIUM")⟩,
      pNum "backhaul_link_redundancy_ratio" (1 / 5), pNum? "num_threads", pNum "min_cost_rel_stop" (1 / 20),
      pNum "min_cost_max_time" 60, pNum "redundancy_rel_stop" (1 / 20), pNum "redundancy_max_time" 60,
      pNum "max_coverage_rel_stop" (-1), pNum "max_coverage_max_time" 60, pNum "interference_rel_stop" (-1),
      pNum "interference_max_time" 60, pNum "pop_proposal_rel_stop" (-1), pNum "pop_proposal_max_time" 60,
      pNum "demand_site_max_time" 15, ⟨"topology_routing", .enum? .routing, some .none⟩,
      pNum "availability_sim_time" 100, pNum "availability_seed" 0, pNum "availability_max_time" 60,
      pStr? "candidate_topology_file_path"]
  | .system => [⟨"output_dir", .str, some (.str "./")⟩, pNum "debug_mode" 0,
      ⟨"logger_level", .enum .logger, some (.enum .logger "INFO")⟩, pStr? "log_file", pNum "log_to_stderr" 1]

/-- `getfullargspec(cls.__init__).args`; `self` is left out. -/
def Cls.args (c : Cls) : List String := c.params.map (·.name)

/-! ## Constructors -/

/-- A check of a constructor: it looks at the values of some parameters. -/
structure Check where
  names : List String
  test : List PyVal → Except Err Unit

/-- `planner_assert(b, ..., e)`. Conditions joined by `and` are separate checks here; they are in the order of the code,
those of the devices last, which makes a difference only to which of several errors is raised. -/
def need (e : Err) (b : Bool) : Except Err Unit := if b then .ok () else .error e

/-- Comparisons are only defined for numbers. -/
def PyVal.toNum : PyVal → Except Err ℚ
  | .num q => .ok q
  | _ => .error .valueError

/-- A condition on one number. -/
def one (n : String) (p : ℚ → Bool) : Check :=
  ⟨[n], fun l => match l with
    | [v] => v.toNum.bind fun q => need .config (p q)
    | _ => .ok ()⟩

/-- A condition without a class of exceptions of its own. -/
def onePlain (n : String) (p : ℚ → Bool) : Check :=
  ⟨[n], fun l => match l with
    | [v] => v.toNum.bind fun q => need .planner (p q)
    | _ => .ok ()⟩

/-- A condition on a number that may be `None`. -/
def optional (n : String) (p : ℚ → Bool) : Check :=
  ⟨[n], fun l => match l with
    | [.none] => .ok ()
    | [v] => v.toNum.bind fun q => need .config (p q)
    | _ => .ok ()⟩

/-- A condition on two numbers, the first of which may be `None`. -/
def optional2 (m n : String) (p : ℚ → ℚ → Bool) : Check :=
  ⟨[m, n], fun l => match l with
    | [.none, _] => .ok ()
    | [v, w] => v.toNum.bind fun q => w.toNum.bind fun r => need .config (p q r)
    | _ => .ok ()⟩

/-- Truth value of a parameter. -/
def PyVal.truthy : PyVal → Bool
  | .none => false
  | .num q => q ≠ 0
  | .str s => s ≠ ""
  | .list xs => !xs.isEmpty
  | .dict kvs => !kvs.isEmpty
  | _ => true

/-- The part of the name after the last dot, `exceptions.py:57`. -/
def extOf (s : String) : String := String.ofList (s.toList.reverse.takeWhile (· ≠ '.')).reverse

/-- `assert_file_extension`, `exceptions.py:54-62`. -/
def extOk (env : CfgEnv) (exts : List String) : PyVal → Except Err Unit
  | .str s => need .data (exts.contains (env.fold (extOf s)))
  | _ => .error .attributeError

/-- `assert_file_extension` if the path is not `None`. -/
def extOpt (env : CfgEnv) (n : String) (exts : List String) : Check :=
  ⟨[n], fun l => match l with
    | [.none] => .ok ()
    | [v] => extOk env exts v
    | _ => .ok ()⟩

/-- The loop over the DSM paths, `configs.py:380-385`. -/
def dsmOk (env : CfgEnv) : List PyVal → Except Err Unit
  | [] => .ok ()
  | .none :: rest => dsmOk env rest
  | v :: rest => (extOk env ["tif", "tiff"] v).bind fun _ => dsmOk env rest

/-- The checks of the constructors except those about devices, `configs.py:190-249, 346-350, 369-409, 447-503, 592-704`. -/
def Cls.checks (env : CfgEnv) : Cls → List Check
  | .sector => [one "antenna_boresight_gain" (0 ≤ ·), one "maximum_tx_power" (0 ≤ ·),
      one "number_sectors_per_node" (1 ≤ ·), one "horizontal_scan_range" (fun q => 0 ≤ q ∧ q ≤ 360),
      one "carrier_frequency" (0 < ·), one "noise_figure" (0 ≤ ·), one "rain_rate" (0 ≤ ·),
      one "link_availability_percentage" (fun q => 0 ≤ q ∧ q ≤ 100), one "tx_diversity_gain" (0 ≤ ·),
      one "rx_diversity_gain" (0 ≤ ·), one "tx_miscellaneous_loss" (0 ≤ ·), one "rx_miscellaneous_loss" (0 ≤ ·),
      optional "minimum_mcs_level" (0 ≤ ·), optional2 "minimum_tx_power" "maximum_tx_power" (fun a b => a ≤ b)]
  | .device => []
  | .detection => [optional "max_corner_angle" (fun q => 0 < q ∧ q < 180)]
  | .gis => [⟨["boundary_polygon_file_path"], fun l => match l with
        | [v] => extOk env ["kml", "kmz"] v
        | _ => .ok ()⟩,
      extOpt env "building_outline_file_path" ["kml", "kmz", "zip"],
      ⟨["dsm_file_paths"], fun l => match l with
        | [.none] => .ok ()
        | [.list xs] => dsmOk env xs
        | [_] => .error .valueError
        | _ => .ok ()⟩,
      extOpt env "dtm_file_path" ["tif"], extOpt env "dhm_file_path" ["tif"],
      extOpt env "site_file_path" ["kml", "kmz", "csv"], extOpt env "base_topology_file_path" ["kml", "kmz"],
      ⟨["building_outline_file_path", "base_topology_file_path"], fun l => match l with
        | [.none, _] => .ok ()
        | [_, .none] => .ok ()
        | [_, _] => .error .config
        | _ => .ok ()⟩]
  | .los => [optional "minimum_mcs_of_backhaul_links" (0 ≤ ·), optional "minimum_mcs_of_access_links" (0 ≤ ·),
      one "minimum_los_distance" (5 ≤ ·), optional2 "maximum_los_distance" "minimum_los_distance" (fun a b => b < a),
      one "maximum_elevation_scan_angle" (fun q => 0 ≤ q ∧ q ≤ 90), one "mounting_height_above_rooftop" (0 ≤ ·),
      one "default_dn_height_on_pole" (0 ≤ ·), one "default_cn_height_on_pole" (0 ≤ ·),
      one "default_pop_height_on_pole" (0 ≤ ·), one "fresnel_radius" (0 < ·),
      one "los_confidence_threshold" (fun q => 0 ≤ q ∧ q ≤ 1)]
  | .opt => [one "pop_site_capex" (0 ≤ ·), one "cn_site_capex" (0 ≤ ·), one "dn_site_capex" (0 ≤ ·), one "budget" (0 ≤ ·),
      one "pop_capacity" (0 < ·), one "oversubscription" (1 ≤ ·), one "number_of_extra_pops" (0 ≤ ·),
      ⟨["enable_cn_demand", "enable_uniform_demand", "enable_manual_demand"], fun l => need .config (l.any PyVal.truthy)⟩,
      ⟨["enable_uniform_demand", "demand_spacing"], fun l => match l with
        | [u, d] => if u.truthy then d.toNum.bind fun q => need .config (0 < q) else .ok ()
        | _ => .ok ()⟩,
      ⟨["enable_uniform_demand", "enable_manual_demand", "demand_connection_radius"], fun l => match l with
        | [u, m, d] => if u.truthy || m.truthy then d.toNum.bind fun q => need .config (0 < q) else .ok ()
        | _ => .ok ()⟩,
      one "demand" (0 < ·), one "dn_dn_sector_limit" (0 < ·),
      optional2 "dn_dn_sector_limit" "dn_total_sector_limit" (fun a b => a ≤ b), one "maximum_number_hops" (0 < ·),
      one "diff_sector_angle_limit" (fun q => 0 ≤ q ∧ q ≤ 180), one "near_far_length_ratio" (0 < ·),
      one "near_far_angle_limit" (fun q => 0 ≤ q ∧ q ≤ 180), one "number_of_channels" (1 ≤ ·),
      one "backhaul_link_redundancy_ratio" (fun q => 0 ≤ q ∧ q ≤ 1), optional "num_threads" (0 < ·),
      one "min_cost_max_time" (0 < ·), one "redundancy_max_time" (0 < ·), one "interference_max_time" (0 < ·),
      one "pop_proposal_max_time" (0 < ·), one "demand_site_max_time" (0 < ·), onePlain "availability_max_time" (0 < ·),
      extOpt env "candidate_topology_file_path" ["kml", "kmz", "zip"]]
  | .system => []

/-- All checks in order. -/
def runChecks (v : String → PyVal) : List Check → Except Err Unit
  | [] => .ok ()
  | c :: rest => (c.test (c.names.map v)).bind fun _ => runChecks v rest

/-- `device_list` as devices: their attributes. -/
def deviceAttrs : List PyVal → Except Err (List (Dict String PyVal))
  | [] => .ok []
  | .obj .device a :: rest => (deviceAttrs rest).map (a :: ·)
  | _ :: _ => .error .attributeError

/-- `_check_duplicated_devices`, `configs.py:801-809`. -/
def checkSkus (env : CfgEnv) : List String → List (Dict String PyVal) → Except Err Unit
  | _, [] => .ok ()
  | seen, d :: rest =>
    match d.get? "device_sku" with
    | some (.str s) => if seen.contains (env.fold s) then .error .config else checkSkus env (env.fold s :: seen) rest
    | _ => .error .attributeError

/-- The parameters that the sectors take over, in the order of `configs.py:791-798`. -/
def radioNames : List String :=
  ["carrier_frequency", "thermal_noise_power", "noise_figure", "rain_rate", "link_availability_percentage"]

/-- `_populate_project_level_parameter`, `configs.py:780-798`, for one device. -/
def populateDevice (v : String → PyVal) (d : Dict String PyVal) : Except Err (Dict String PyVal) :=
  match d.get? "sector_params" with
  | some (.obj .sector a) =>
    .ok (d.set "sector_params" (.obj .sector (radioNames.foldl (fun (a : Dict String PyVal) n => a.set n (v n)) a)))
  | _ => .error .attributeError

/-- The loop over the devices. -/
def populateAll (v : String → PyVal) : List (Dict String PyVal) → Except Err (List (Dict String PyVal))
  | [] => .ok []
  | d :: rest => (populateDevice v d).bind fun d' => (populateAll v rest).map (d' :: ·)

/-- Checks and changes of `device_list` in `LOSParams.__init__` and `OptimizerParams.__init__`,
`configs.py:447-451, 500, 524-531, 587-591, 592, 746-753`. -/
def acceptList (env : CfgEnv) (v : String → PyVal) : Except Err PyVal :=
  match v "device_list" with
  | .list xs =>
    if xs.isEmpty then .error .config
    else (deviceAttrs xs).bind fun ds => (checkSkus env [] ds).bind fun _ =>
      (populateAll v ds).map fun ds' => .list (ds'.map (PyVal.obj .device))
  | _ => .error .valueError

/-- Attributes that are the parameters with these names. -/
def plain (v : String → PyVal) (ns : List String) : Dict String PyVal := ns.map fun n => (n, v n)

/-- The content of a pattern file, or `None`, `configs.py:267-277`. -/
def readData (f : String → Except Err String) : PyVal → Except Err PyVal
  | .none => .ok .none
  | .str s => (f s).map .data
  | _ => .error .valueError

/-- The table of rates, `configs.py:278-283`. -/
def readRates (env : CfgEnv) (v : String → PyVal) : Except Err PyVal :=
  match v "mcs_map_file_path" with
  | .none => .ok (.list (env.defaultRates.map PyVal.row))
  | .str s => (env.rates s (v "minimum_mcs_level") (v "minimum_tx_power") (v "maximum_tx_power")).map fun rows =>
      .list (rows.map PyVal.row)
  | _ => .error .valueError

/-- The attributes of a sector in the order of assignment, `configs.py:251-283`. -/
def sectorAttrs (v : String → PyVal) (ant scan rates : PyVal) : Dict String PyVal :=
  plain v ["antenna_boresight_gain", "maximum_tx_power", "number_sectors_per_node", "horizontal_scan_range",
    "carrier_frequency", "thermal_noise_power", "noise_figure", "rain_rate", "link_availability_percentage",
    "tx_diversity_gain", "rx_diversity_gain", "tx_miscellaneous_loss", "rx_miscellaneous_loss", "minimum_mcs_level",
    "minimum_tx_power", "antenna_pattern_file_path"] ++
  [("antenna_pattern_data", ant), ("scan_pattern_file_path", v "scan_pattern_file_path"), ("scan_pattern_data", scan),
    ("mcs_map_file_path", v "mcs_map_file_path"), ("mcs_map", rates)]

/-- `SectorParams.__init__` after the checks, `configs.py:251-283`. -/
def initSector (env : CfgEnv) (v : String → PyVal) : Except Err (Dict String PyVal) :=
  (readData env.antenna (v "antenna_pattern_file_path")).bind fun ant =>
  (readData env.scan (v "scan_pattern_file_path")).bind fun scan =>
  (readRates env v).map fun rates => sectorAttrs v ant scan rates

/-- `device_type == DeviceType.CN`. -/
def PyVal.isCn : PyVal → Bool
  | .enum c n => c = .device && n = "CN"
  | _ => false

/-- `number_of_nodes_per_site`, `configs.py:306-323`. -/
def nodeCount (typ : PyVal) : PyVal → Except Err PyVal
  | .none => .ok (.num (if typ.isCn then 1 else 4))
  | .num n =>
    if n < 1 then .error .config
    else if n ≠ 1 ∧ typ.isCn = true then .error .config
    else .ok (.num n)
  | _ => .error .valueError

/-- `DeviceData.__init__`, `configs.py:295-331`. -/
def initDevice (v : String → PyVal) : Except Err (Dict String PyVal) :=
  match v "device_sku", v "sector_params" with
  | .str sku, .obj .sector a =>
    if sku = "" then .error .config
    else (v "node_capex").toNum.bind fun c => if c < 0 then .error .config
    else (nodeCount (v "device_type") (v "number_of_nodes_per_site")).bind fun n =>
      match Dict.get? a "horizontal_scan_range", Dict.get? a "number_sectors_per_node", n with
      | some (.num r), some (.num k), .num m =>
        if r * k * m ≤ 360 then
          .ok [("device_sku", .str sku), ("sector_params", .obj .sector a), ("node_capex", v "node_capex"),
            ("number_of_nodes_per_site", n), ("device_type", v "device_type")]
        else .error .config
      | _, _, _ => .error .valueError
  | .str _, _ => .error .attributeError
  | _, _ => .error .valueError

/-- Is the value not `None`? -/
def PyVal.isSome : PyVal → Bool
  | .none => false
  | _ => true

/-- `self.dsm_file_paths`, `configs.py:412-416`. -/
def keepPaths : PyVal → PyVal
  | .list xs => .list (xs.filter PyVal.isSome)
  | _ => .list []

/-- Attributes of `LOSParams` after `device_list`, in the order of assignment, `configs.py:502-523`. -/
def losNames : List String := ["minimum_mcs_of_backhaul_links",
  "minimum_mcs_of_access_links", "maximum_eirp", "rain_rate", "maximum_los_distance", "minimum_los_distance",
  "maximum_elevation_scan_angle", "carrier_frequency", "thermal_noise_power", "noise_figure",
  "mounting_height_above_rooftop", "default_dn_height_on_pole", "default_cn_height_on_pole",
  "default_pop_height_on_pole", "use_ellipsoidal_los_model", "fresnel_radius", "los_confidence_threshold",
  "site_detection", "num_processors", "link_availability_percentage"]

/-- Attributes of `OptimizerParams` after `device_list`, in the order of assignment, `configs.py:700-745`. -/
def optNames : List String := ["rain_rate", "budget", "pop_capacity", "oversubscription", "carrier_frequency",
  "thermal_noise_power", "noise_figure", "maximum_eirp", "enable_cn_demand", "enable_uniform_demand",
  "enable_manual_demand", "demand_spacing", "demand_connection_radius", "demand", "number_of_extra_pops",
  "dn_dn_sector_limit", "dn_total_sector_limit", "maximum_number_hops", "diff_sector_angle_limit",
  "near_far_length_ratio", "near_far_angle_limit", "number_of_channels", "maximize_common_bandwidth",
  "always_active_pops", "enable_legacy_redundancy_method", "redundancy_level", "backhaul_link_redundancy_ratio",
  "num_threads", "min_cost_rel_stop", "min_cost_max_time", "redundancy_rel_stop", "redundancy_max_time",
  "max_coverage_rel_stop", "max_coverage_max_time", "interference_rel_stop", "interference_max_time",
  "pop_proposal_rel_stop", "pop_proposal_max_time", "demand_site_max_time", "topology_routing",
  "availability_sim_time", "availability_seed", "availability_max_time", "candidate_topology_file_path",
  "link_availability_percentage"]

/-- The constructors after the checks; the attributes in the order of assignment, `configs.py:251-283, 309-331, 351-355,
410-419, 501-531, 696-761, 772-777`. -/
def Cls.init (env : CfgEnv) (v : String → PyVal) : Cls → Except Err (Dict String PyVal)
  | .sector => initSector env v
  | .device => initDevice v
  | .detection => .ok (plain v ["dn_deployment", "detect_highest", "detect_centers", "detect_corners", "max_corner_angle"])
  | .gis => .ok (plain v ["boundary_polygon_file_path", "building_outline_file_path"] ++
      [("dsm_file_paths", keepPaths (v "dsm_file_paths"))] ++
      plain v ["dtm_file_path", "dhm_file_path", "site_file_path", "base_topology_file_path"])
  | .los => (acceptList env v).map fun ds => [("device_list", ds)] ++ plain v losNames
  | .opt => (acceptList env v).map fun ds => plain v ["pop_site_capex", "cn_site_capex", "dn_site_capex"] ++
      [("device_list", ds)] ++ plain v optNames ++ [("coverage_percentage", .num 1), ("ignore_polarities", .num 0)]
  | .system => .ok (plain v ["output_dir", "debug_mode", "logger_level", "log_file", "log_to_stderr"])

/-- The values that the parameters are bound to by `cls(**kw)`. -/
def Cls.value (c : Cls) (kw : Dict String PyVal) (n : String) : PyVal :=
  match kw.get? n with
  | some x => x
  | none => ((c.params.find? fun p => p.name = n).bind (·.default)).getD .none

/-- `cls(**kw)`: a parameter without value or an unknown keyword raises `TypeError`. -/
def Cls.make (env : CfgEnv) (c : Cls) (kw : Dict String PyVal) : Except Err PyVal :=
  if c.params.any (fun p => p.default.isNone && !kw.has p.name) then .error .valueError
  else if kw.any (fun e => !c.args.contains e.1) then .error .valueError
  else (runChecks (c.value kw) (c.checks env)).bind fun _ => (c.init env (c.value kw)).map (PyVal.obj c)

/-! ## `to_dict`, `from_dict` and `==` -/

mutual
/-- The value of an attribute in `to_dict`, `configs.py:58-81`. -/
def PyVal.ser : PyVal → Except Err PyVal
  | .none => .ok .none
  | .num q => .ok (.num q)
  | .str s => .ok (.str s)
  | .enum _ n => .ok (.str n)
  | .row xs => .ok (.list (xs.map PyVal.num))
  | .data _ => .error .planner
  | .list xs => (serItems xs).map .list
  | .dict _ => .error .planner
  | .obj _ a => (serAttrs a).map .dict
/-- The items of a list, `configs.py:62-70`: `value` is the list at line 67, so that enums are not kept, nor is anything
else but objects, strings and numbers. -/
def serItems : List PyVal → Except Err (List PyVal)
  | [] => .ok []
  | x :: rest =>
    match x with
    | .obj _ a => (serAttrs a).bind fun d => (serItems rest).map (.dict d :: ·)
    | .num q => (serItems rest).map (.num q :: ·)
    | .str s => (serItems rest).map (.str s :: ·)
    | _ => serItems rest
/-- `to_dict`, `configs.py:52-82`. -/
def serAttrs : List (String × PyVal) → Except Err (List (String × PyVal))
  | [] => .ok []
  | (k, x) :: rest => x.ser.bind fun y => (serAttrs rest).map ((k, y) :: ·)
end

/-- `CLASS_NAME_MAPPING`, `configs.py:38-42`. -/
def classOf : String → Option Cls
  | "sector_params" => some .sector
  | "device_list" => some .device
  | "site_detection" => some .detection
  | _ => none

/-- `CLASS_NAME_TO_ENUM_MAPPING`, `configs.py:43-48`. -/
def enumOf : String → Option EnumCls
  | "device_type" => some .device
  | "redundancy_level" => some .redundancy
  | "topology_routing" => some .routing
  | "logger_level" => some .logger
  | _ => none

/-- A dictionary from key-value pairs: the last value of a key counts. -/
def ofPairs (l : List (String × PyVal)) : Dict String PyVal := l.foldl (fun (d : Dict String PyVal) e => d.set e.1 e.2) []

/-- `{**a, **b}`. -/
def mergeDict (a b : Dict String PyVal) : Dict String PyVal := ofPairs (a ++ b)

/-- The items of a list that are dictionaries become objects, `configs.py:117-129`; `make` is `from_dict` of the class. -/
def convItems (make : Cls → Dict String PyVal → Except Err PyVal) (key : String) (prop : Dict String PyVal) :
    List PyVal → Except Err (List PyVal)
  | [] => .ok []
  | .dict d :: rest =>
    match classOf key with
    | none => .error .keyError
    | some c => (make c (mergeDict d prop)).bind fun o => (convItems make key prop rest).map (o :: ·)
  | x :: rest => (convItems make key prop rest).map (x :: ·)

/-- One round of the loop of `from_dict`, `configs.py:93-139`; the dictionary is `func_arg_val`. -/
def fromStep (env : CfgEnv) (make : Cls → Dict String PyVal → Except Err PyVal) (c : Cls) (prop acc : Dict String PyVal)
    (key : String) (value : PyVal) : Except Err (Dict String PyVal) :=
  if c.args.contains key then
    match enumOf key with
    | some e =>
      match value with
      | .none => .ok acc
      | v => (e.fromString env v).map fun x => acc.set key x
    | none =>
      match value with
      | .dict d =>
        match classOf key with
        | none => .ok acc
        | some cc => (make cc (mergeDict d prop)).map fun o => acc.set key o
      | .list xs => (convItems make key prop xs).map fun ys => acc.set key (.list ys)
      | .none => .ok acc
      | v => .ok (acc.set key v)
  else
    match value with
    | .dict d => .ok (d.foldl (fun acc e => if c.args.contains (env.fold e.1) then acc.set (env.fold e.1) e.2 else acc) acc)
    | _ => .ok acc

/-- The loop of `from_dict`. -/
def fromLoop (env : CfgEnv) (make : Cls → Dict String PyVal → Except Err PyVal) (c : Cls) (prop : Dict String PyVal) :
    Dict String PyVal → List (String × PyVal) → Except Err (Dict String PyVal)
  | acc, [] => .ok acc
  | acc, e :: rest => (fromStep env make c prop acc e.1 e.2).bind fun acc' => fromLoop env make c prop acc' rest

/-- `from_dict`, `configs.py:83-143`, with a bound on the depth of the classes: `LOSParams` has devices and they have
sectors, so that 2 is enough. -/
def fromDictN (env : CfgEnv) : Nat → Cls → Dict String PyVal → Except Err PyVal
  | n, c, prop =>
    (fromLoop env (match n with | 0 => fun _ _ => .error .planner | m + 1 => fromDictN env m) c prop []
      (ofPairs (prop.map fun e => (env.fold e.1, e.2)))).bind fun kw => c.make env (kw.filter fun e => e.2.isSome)

/-- `cls.from_dict(propdict)`. -/
def Cls.fromDict (env : CfgEnv) (c : Cls) (prop : Dict String PyVal) : Except Err PyVal := fromDictN env 2 c prop

/-- The result of a method `__eq__`. -/
inductive EqRes
  | yes
  | no
  | notImplemented
  deriving DecidableEq, Repr

/-- `<=` of tuples. -/
def rowLe : List ℚ → List ℚ → Bool
  | [], _ => true
  | _ :: _, [] => false
  | a :: as, b :: bs => if a < b then true else if b < a then false else rowLe as bs

/-- `not other < self`, for `list.sort`: strings, rates and devices (`configs.py:333-334`); other values are not in lists. -/
def PyVal.le : PyVal → PyVal → Bool
  | .str a, .str b => !decide (b < a)
  | .num a, .num b => a ≤ b
  | .row a, .row b => rowLe a b
  | .obj .device a, .obj .device b =>
    match Dict.get? a "device_sku", Dict.get? b "device_sku" with
    | some (.str s), some (.str t) => !decide (t < s)
    | _, _ => true
  | _, _ => true

/-- `list.sort`. -/
def sortVals (xs : List PyVal) : List PyVal := xs.insertionSort (fun a b => a.le b = true)

/-- `value[i].__eq__(other_value[i])` for all `i in range(len(value))`, `configs.py:157-159`: `NotImplemented` is true, items
that only `other_value` has are not looked at, and `IndexError` (here `.keyError`) is raised if `other_value` is shorter. -/
def eqItems : List (PyVal × (PyVal → Except Err EqRes)) → List PyVal → Except Err Bool
  | [], _ => .ok true
  | _ :: _, [] => .error .keyError
  | f :: fs, y :: ys => (f.2 y).bind fun r => if r = .no then .ok false else eqItems fs ys

/-- `a.__eq__(b)` as a result of comparing two equals. -/
def EqRes.ofBool (b : Bool) : EqRes := if b then .yes else .no

mutual
/-- `a.__eq__(b)`: of `ConfigParser`, `configs.py:145-165`, of enums (identity) and of the types of Python. -/
def PyVal.eqMethod : PyVal → PyVal → Except Err EqRes
  | .none => fun y => match y with | .none => .ok .yes | _ => .ok .notImplemented
  | .num a => fun y => match y with | .num b => .ok (.ofBool (a = b)) | _ => .ok .notImplemented
  | .str a => fun y => match y with | .str b => .ok (.ofBool (a = b)) | _ => .ok .notImplemented
  | .enum c n => fun y => match y with
    | .enum c' n' => .ok (if c = c' ∧ n = n' then .yes else .notImplemented)
    | _ => .ok .notImplemented
  | .row a => fun y => match y with | .row b => .ok (.ofBool (a = b)) | _ => .ok .notImplemented
  | .data a => fun y => match y with | .data b => .ok (.ofBool (a = b)) | _ => .ok .notImplemented
  | .list _ => fun _ => .ok .notImplemented
  | .dict _ => fun _ => .ok .notImplemented
  | .obj c a => fun y => match y with
    | .obj c' b => if c = c' then eqAttrs a b else .ok .notImplemented
    | _ => .ok .notImplemented
/-- The items with their methods. -/
def eqMethods : List PyVal → List (PyVal × (PyVal → Except Err EqRes))
  | [] => []
  | x :: rest => (x, x.eqMethod) :: eqMethods rest
/-- The loop over the attributes, `configs.py:150-163`; `return value.__eq__(other_value)` ends it. -/
def eqAttrs : List (String × PyVal) → List (String × PyVal) → Except Err EqRes
  | [] => fun _ => .ok .yes
  | (k, x) :: rest => fun b =>
    match Dict.get? b k with
    | none => .error .keyError
    | some y =>
      match x with
      | .list xs =>
        match y with
        | .list ys =>
          (eqItems ((eqMethods xs).insertionSort fun a b => a.1.le b.1 = true) (sortVals ys)).bind fun r =>
            if r then eqAttrs rest b else .ok .no
        | _ => .error .attributeError
      | .num q => (PyVal.eqMethod (.num q) y).bind fun r => if r = .yes then eqAttrs rest b else .ok .no
      | .str s => (PyVal.eqMethod (.str s) y).bind fun r => if r = .yes then eqAttrs rest b else .ok .no
      | .row r => (PyVal.eqMethod (.row r) y).bind fun r => if r = .yes then eqAttrs rest b else .ok .no
      | .none => PyVal.eqMethod .none y
      | .enum c n => PyVal.eqMethod (.enum c n) y
      | .data s => PyVal.eqMethod (.data s) y
      | .dict d => PyVal.eqMethod (.dict d) y
      | .obj c a => PyVal.eqMethod (.obj c a) y
end

/-- `a == b` of two different objects: the method of `b` is asked if that of `a` has no answer. -/
def PyVal.eq (a b : PyVal) : Except Err Bool :=
  (a.eqMethod b).bind fun r => match r with
    | .yes => .ok true
    | .no => .ok false
    | .notImplemented => (b.eqMethod a).map (· == .yes)

/-- `obj.to_dict()`. -/
def PyVal.toDict : PyVal → Except Err (Dict String PyVal)
  | .obj _ a => serAttrs a
  | _ => .error .attributeError

end Verif
