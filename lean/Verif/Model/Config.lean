import Verif.Base
import Verif.Model.Enums
import Mathlib.Data.Rat.Defs
import Mathlib.Algebra.Order.Field.Rat

/-!
# Devices in the configuration

`terragraph_planner/common/configuration/configs.py`. The numbers are exact rationals.
-/

namespace Verif

/-- `SectorParams`, `configs.py:168-283`, without the files of patterns and rate tables. -/
structure SectorCfg where
  boresightGain : ℚ := 30
  maxTxPower : ℚ := 16
  sectorsPerNode : Int := 1
  scanRange : ℚ := 70
  carrierFrequency : ℚ := 60000
  thermalNoise : ℚ := -81
  noiseFigure : ℚ := 7
  rainRate : ℚ := 30
  availability : ℚ := 999 / 10
  txDiversity : ℚ := 0
  rxDiversity : ℚ := 0
  txLoss : ℚ := 0
  rxLoss : ℚ := 0
  minMcs : Option Int := none
  minTxPower : Option ℚ := none
  deriving DecidableEq, Repr

/-- `SectorParams.__init__`, `configs.py:190-249`. -/
def mkSector (s : SectorCfg) : Except Err SectorCfg :=
  if ¬ 0 ≤ s.boresightGain then .error .config
  else if ¬ 0 ≤ s.maxTxPower then .error .config
  else if ¬ 1 ≤ s.sectorsPerNode then .error .config
  else if ¬ (0 ≤ s.scanRange ∧ s.scanRange ≤ 360) then .error .config
  else if ¬ 0 < s.carrierFrequency then .error .config
  else if ¬ 0 ≤ s.noiseFigure then .error .config
  else if ¬ 0 ≤ s.rainRate then .error .config
  else if ¬ (0 ≤ s.availability ∧ s.availability ≤ 100) then .error .config
  else if ¬ (0 ≤ s.txDiversity ∧ 0 ≤ s.rxDiversity) then .error .config
  else if ¬ (0 ≤ s.txLoss ∧ 0 ≤ s.rxLoss) then .error .config
  else if ¬ (∀ m ∈ s.minMcs, 0 ≤ m) then .error .config
  else if ¬ (∀ p ∈ s.minTxPower, p ≤ s.maxTxPower) then .error .config
  else .ok s

/-- `DeviceData`, `configs.py:286-334`. -/
structure DeviceCfg where
  sku : String
  sector : SectorCfg := {}
  nodeCapex : ℚ := 250
  nodes : Int := 4
  deviceType : DeviceType := .dn
  deriving DecidableEq, Repr

/-- `DeviceData.__init__`, `configs.py:295-331`. -/
def mkDevice (sku : String) (sector : SectorCfg) (capex : ℚ) (nodes : Option Int) (typ : DeviceType) :
    Except Err DeviceCfg :=
  if sku = "" then .error .config
  else if ¬ 0 ≤ capex then .error .config
  else if ¬ (∀ n ∈ nodes, 1 ≤ n) then .error .config
  else if nodes ≠ none ∧ nodes ≠ some 1 ∧ typ = .cn then .error .config
  else
    let n := nodes.getD (if typ = .cn then 1 else 4)
    if ¬ sector.scanRange * sector.sectorsPerNode * n ≤ 360 then .error .config
    else .ok ⟨sku, sector, capex, n, typ⟩

/-- `_check_duplicated_devices`, `configs.py:801-809`, with the set of SKUs seen so far; `fold` is
`str.casefold`. -/
def checkDuplicated (fold : String → String) : List String → List DeviceCfg → Except Err Unit
  | _, [] => .ok ()
  | seen, d :: rest =>
    if seen.contains (fold d.sku) then .error .config else checkDuplicated fold (fold d.sku :: seen) rest

/-- The parameters of a project that the sectors take over, `configs.py:780-787`. -/
structure ProjectRadio where
  carrierFrequency : ℚ := 60000
  thermalNoise : ℚ := -81
  noiseFigure : ℚ := 7
  rainRate : ℚ := 30
  availability : ℚ := 999 / 10
  deriving DecidableEq, Repr

/-- `_populate_project_level_parameter`, `configs.py:780-798`, for one device. -/
def populate (r : ProjectRadio) (d : DeviceCfg) : DeviceCfg :=
  { d with sector := { d.sector with
      carrierFrequency := r.carrierFrequency
      thermalNoise := r.thermalNoise
      noiseFigure := r.noiseFigure
      rainRate := r.rainRate
      availability := r.availability } }

/-- What `LOSParams.__init__` (`configs.py:447-531`) and `OptimizerParams.__init__` (`configs.py:587-754`) do with
the devices; the checks of the other parameters are not modelled. -/
def acceptDevices (fold : String → String) (r : ProjectRadio) (ds : List DeviceCfg) :
    Except Err (List DeviceCfg) :=
  if ds.length = 0 then .error .config
  else match checkDuplicated fold [] ds with
    | .error e => .error e
    | .ok () => .ok (ds.map (populate r))

end Verif
