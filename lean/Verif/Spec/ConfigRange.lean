import Verif.Spec.ConfigDict

/-!
# The values that the constructors of configuration objects accept
-/

namespace Verif

/-- A number with the property. -/
def NumIn (x : PyVal) (p : ℚ → Prop) : Prop := ∃ q, x = .num q ∧ p q

/-- `None`, or a number with the property. -/
def OptIn (x : PyVal) (p : ℚ → Prop) : Prop := x = .none ∨ NumIn x p

/-- Ranges of `SectorParams`. -/
structure SectorRange (v : String → PyVal) : Prop where
  gain : NumIn (v "antenna_boresight_gain") (0 ≤ ·)
  power : NumIn (v "maximum_tx_power") (0 ≤ ·)
  sectors : NumIn (v "number_sectors_per_node") (1 ≤ ·)
  scan : NumIn (v "horizontal_scan_range") fun q => 0 ≤ q ∧ q ≤ 360
  carrier : NumIn (v "carrier_frequency") (0 < ·)
  noise : NumIn (v "noise_figure") (0 ≤ ·)
  rain : NumIn (v "rain_rate") (0 ≤ ·)
  avail : NumIn (v "link_availability_percentage") fun q => 0 ≤ q ∧ q ≤ 100
  txDiv : NumIn (v "tx_diversity_gain") (0 ≤ ·)
  rxDiv : NumIn (v "rx_diversity_gain") (0 ≤ ·)
  txLoss : NumIn (v "tx_miscellaneous_loss") (0 ≤ ·)
  rxLoss : NumIn (v "rx_miscellaneous_loss") (0 ≤ ·)
  mcs : OptIn (v "minimum_mcs_level") (0 ≤ ·)
  minPower : OptIn (v "minimum_tx_power") fun q => NumIn (v "maximum_tx_power") (q ≤ ·)

/-- Ranges of `LOSParams`. -/
structure LosRange (v : String → PyVal) : Prop where
  mcsBackhaul : OptIn (v "minimum_mcs_of_backhaul_links") (0 ≤ ·)
  mcsAccess : OptIn (v "minimum_mcs_of_access_links") (0 ≤ ·)
  minDistance : NumIn (v "minimum_los_distance") (5 ≤ ·)
  maxDistance : OptIn (v "maximum_los_distance") fun q => NumIn (v "minimum_los_distance") (· < q)
  elevation : NumIn (v "maximum_elevation_scan_angle") fun q => 0 ≤ q ∧ q ≤ 90
  roof : NumIn (v "mounting_height_above_rooftop") (0 ≤ ·)
  dnPole : NumIn (v "default_dn_height_on_pole") (0 ≤ ·)
  cnPole : NumIn (v "default_cn_height_on_pole") (0 ≤ ·)
  popPole : NumIn (v "default_pop_height_on_pole") (0 ≤ ·)
  radius : NumIn (v "fresnel_radius") (0 < ·)
  confidence : NumIn (v "los_confidence_threshold") fun q => 0 ≤ q ∧ q ≤ 1

/-- The part of a file name after the last dot is one of these, without regard to case. -/
def HasExt (env : CfgEnv) (exts : List String) (x : PyVal) : Prop :=
  ∃ s e, x = .str s ∧ '.' ∉ e.toList ∧ (s = e ∨ ∃ p, s = p ++ "." ++ e) ∧ env.fold e ∈ exts

/-- No file, or one with such a name. -/
def OptExt (env : CfgEnv) (exts : List String) (x : PyVal) : Prop := x = .none ∨ HasExt env exts x

/-- Ranges of `OptimizerParams`. -/
structure OptRange (env : CfgEnv) (v : String → PyVal) : Prop where
  popCapex : NumIn (v "pop_site_capex") (0 ≤ ·)
  cnCapex : NumIn (v "cn_site_capex") (0 ≤ ·)
  dnCapex : NumIn (v "dn_site_capex") (0 ≤ ·)
  budget : NumIn (v "budget") (0 ≤ ·)
  popCapacity : NumIn (v "pop_capacity") (0 < ·)
  oversubscription : NumIn (v "oversubscription") (1 ≤ ·)
  extraPops : NumIn (v "number_of_extra_pops") (0 ≤ ·)
  someDemand : (v "enable_cn_demand").truthy = true ∨ (v "enable_uniform_demand").truthy = true ∨
    (v "enable_manual_demand").truthy = true
  spacing : (v "enable_uniform_demand").truthy = true → NumIn (v "demand_spacing") (0 < ·)
  radius : (v "enable_uniform_demand").truthy = true ∨ (v "enable_manual_demand").truthy = true →
    NumIn (v "demand_connection_radius") (0 < ·)
  demand : NumIn (v "demand") (0 < ·)
  dnLimit : NumIn (v "dn_dn_sector_limit") (0 < ·)
  totalLimit : NumIn (v "dn_dn_sector_limit") fun q => NumIn (v "dn_total_sector_limit") (q ≤ ·)
  hops : NumIn (v "maximum_number_hops") (0 < ·)
  sectorAngle : NumIn (v "diff_sector_angle_limit") fun q => 0 ≤ q ∧ q ≤ 180
  farRatio : NumIn (v "near_far_length_ratio") (0 < ·)
  farAngle : NumIn (v "near_far_angle_limit") fun q => 0 ≤ q ∧ q ≤ 180
  channels : NumIn (v "number_of_channels") (1 ≤ ·)
  redundancy : NumIn (v "backhaul_link_redundancy_ratio") fun q => 0 ≤ q ∧ q ≤ 1
  threads : OptIn (v "num_threads") (0 < ·)
  costTime : NumIn (v "min_cost_max_time") (0 < ·)
  redundancyTime : NumIn (v "redundancy_max_time") (0 < ·)
  interferenceTime : NumIn (v "interference_max_time") (0 < ·)
  popTime : NumIn (v "pop_proposal_max_time") (0 < ·)
  demandTime : NumIn (v "demand_site_max_time") (0 < ·)
  availabilityTime : NumIn (v "availability_max_time") (0 < ·)
  topology : OptExt env ["kml", "kmz", "zip"] (v "candidate_topology_file_path")

/-- Conditions of `GISDataParams`. -/
structure GisRange (env : CfgEnv) (v : String → PyVal) : Prop where
  boundary : HasExt env ["kml", "kmz"] (v "boundary_polygon_file_path")
  outline : OptExt env ["kml", "kmz", "zip"] (v "building_outline_file_path")
  dsm : v "dsm_file_paths" = .none ∨ ∃ xs, v "dsm_file_paths" = .list xs ∧ ∀ x ∈ xs, OptExt env ["tif", "tiff"] x
  dtm : OptExt env ["tif"] (v "dtm_file_path")
  dhm : OptExt env ["tif"] (v "dhm_file_path")
  sites : OptExt env ["kml", "kmz", "csv"] (v "site_file_path")
  base : OptExt env ["kml", "kmz"] (v "base_topology_file_path")
  oneSource : v "building_outline_file_path" = .none ∨ v "base_topology_file_path" = .none

/-- The files of a sector that can be read. -/
structure Readable (env : CfgEnv) (v : String → PyVal) : Prop where
  antenna : ∀ s, v "antenna_pattern_file_path" = .str s → (env.antenna s).toOption ≠ none
  scan : ∀ s, v "scan_pattern_file_path" = .str s → (env.scan s).toOption ≠ none
  rates : ∀ s, v "mcs_map_file_path" = .str s →
    (env.rates s (v "minimum_mcs_level") (v "minimum_tx_power") (v "maximum_tx_power")).toOption ≠ none

/-- Conditions of `DeviceData`: a SKU, costs of at least 0, at least one node and exactly one if it is a CN (where the number
is 1 for CNs and 4 for DNs if it is not given), and sectors that span at most 360 degrees. -/
structure DeviceRange (v : String → PyVal) : Prop where
  sku : v "device_sku" ≠ .str ""
  capex : NumIn (v "node_capex") (0 ≤ ·)
  nodes : ∃ n : ℚ, 1 ≤ n ∧ (v "device_type" = .enum .device "CN" → n = 1) ∧
    (v "number_of_nodes_per_site" = .num n ∨
      v "number_of_nodes_per_site" = .none ∧ (v "device_type" ≠ .enum .device "CN" → n = 4)) ∧
    ∃ r k, (v "sector_params").number "horizontal_scan_range" = some r ∧
      (v "sector_params").number "number_sectors_per_node" = some k ∧ r * k * n ≤ 360

/-- The SKU of a device. -/
def PyVal.sku (x : PyVal) : Option String :=
  match x.attr "device_sku" with
  | some (.str s) => some s
  | _ => Option.none

/-- The devices are at least one, and their SKUs differ by more than case. -/
def DevicesOk (env : CfgEnv) (x : PyVal) : Prop :=
  ∃ xs, x = .list xs ∧ xs ≠ [] ∧ (xs.map fun d => d.sku.map env.fold).Nodup

/-- The values that a constructor accepts. -/
def Cls.accepts (env : CfgEnv) (c : Cls) (v : String → PyVal) : Prop :=
  match c with
  | .sector => SectorRange v ∧ Readable env v
  | .device => DeviceRange v
  | .detection => OptIn (v "max_corner_angle") fun q => 0 < q ∧ q < 180
  | .gis => GisRange env v
  | .los => LosRange v ∧ DevicesOk env (v "device_list")
  | .opt => OptRange env v ∧ DevicesOk env (v "device_list")
  | .system => True

/-- The keyword arguments name parameters, none is missing that has no default, and they are of the annotated types. -/
structure GoodArgs (env : CfgEnv) (c : Cls) (kw : Dict String PyVal) : Prop where
  known : ∀ e ∈ kw, e.1 ∈ c.args
  required : ∀ p ∈ c.params, p.default = none → ∃ x, kw.get? p.name = some x
  kinds : ∀ p ∈ c.params, ∀ x, kw.get? p.name = some x → HasKind env p.kind x

/-- The value of a parameter: the argument, or else the default. -/
def Cls.bound (c : Cls) (kw : Dict String PyVal) (n : String) : PyVal :=
  (kw.get? n).getD (((c.params.find? fun p => p.name = n).bind (·.default)).getD .none)

end Verif
