import Verif.Base
import Mathlib.Data.Rat.Floor
import Mathlib.Order.WithBot

/-!
# Link budget and LOS range

`common/rf/link_budget_calculator.py` (rate-table look-ups, transmit power,
`fspl_based_estimation`), `los/helper.py` (range search) and the table
acceptance of `common/data_io/csv_library.py`. Floats are exact rationals;
`-math.inf` is `⊥`. The path loss, rain and oxygen formulas
(`link_budget_calculator.py:39-46, 207-269`) are in `Verif.Model.LinkBudget`; here the
net gain of a link is a parameter. `NaN` is not modelled.
-/

namespace Verif

/-- `{k: v for ...}`: later entries overwrite earlier ones. -/
def Dict.ofList {κ ν : Type} [DecidableEq κ] (ps : List (κ × ν)) : Dict κ ν :=
  ps.foldl (fun d p => d.set p.1 p.2) []

/-- Python `min(iterable)`; `none` is the `ValueError` on an empty iterable. -/
def pyMin {α : Type} [LinearOrder α] : List α → Option α
  | [] => none
  | a :: as => some (as.foldl min a)

/-- Python `max(iterable)`; `none` is the `ValueError` on an empty iterable. -/
def pyMax {α : Type} [LinearOrder α] : List α → Option α
  | [] => none
  | a :: as => some (as.foldl max a)

/-- `common/structs.py:32-36` `MCSMap`: one row of a rate table. -/
structure McsRow where
  mcs : ℤ
  snr : ℚ
  mbps : ℚ
  txBackoff : ℚ := 0
  deriving DecidableEq, Repr

/-- `link_budget_calculator.py:464-468` and the identical `483-487`: 0 if `x` is
below every value, otherwise `max(k for k, v in d.items() if x >= v)`. -/
def largestKeyWithin {κ ν : Type} [LinearOrder κ] [LinearOrder ν] [Zero κ]
    (d : Dict κ ν) (x : ν) : Except Err κ :=
  match pyMin d.vals with
  | none => .error .valueError
  | some lo =>
    if x < lo then .ok 0
    else
      match pyMax ((d.filter fun p : κ × ν => decide (p.2 ≤ x)).map Prod.fst) with
      | none => .error .valueError
      | some m => .ok m

/-- `link_budget_calculator.py:452-468` `get_mcs_from_snr` (`NaN` not
modelled). -/
def mcsFromSnr (snr : ℚ) (tbl : List McsRow) : Except Err ℤ :=
  largestKeyWithin (Dict.ofList (tbl.map fun r => (r.mcs, r.snr))) snr

/-- `link_budget_calculator.py:471-487` `get_snr_from_mcs`. -/
def snrFromMcs (mcs : ℤ) (tbl : List McsRow) : Except Err ℚ :=
  largestKeyWithin (Dict.ofList (tbl.map fun r => (r.snr, r.mcs))) mcs

/-- `link_budget_calculator.py:389-398` `get_backoff_from_mcs`. -/
def backoffOf (mcs : ℤ) (tbl : List McsRow) : ℚ :=
  match (tbl.filter fun r => decide (r.mcs = mcs)).map McsRow.txBackoff with
  | [] => 0
  | b :: _ => b

/-- `link_budget_calculator.py:504-513` `get_link_capacity_from_mcs`, with
`mbps_to_gbps` of lines 36-37. -/
def capacityOf (mcs : ℤ) (tbl : List McsRow) : ℚ :=
  match (tbl.filter fun r => decide (r.mcs = mcs)).map McsRow.mbps with
  | [] => 0
  | b :: _ => b / 1000

/-- `link_budget_calculator.py:418-421`: the power needed to reach the SNR of a
level, raised to the minimum power (490-501 inlined). -/
def neededPower (minTx : Option ℚ) (gain np snr : ℚ) : ℚ :=
  match minTx with
  | none => snr + np - gain
  | some lo => max lo (snr + np - gain)

/-- `link_budget_calculator.py:416-426`: the `while` loop of
`adjust_tx_power_with_backoff`, on the (positive) level. -/
def adjustLoop (tbl : List McsRow) (minTx : Option ℚ) (maxTx gain np : ℚ) :
    ℕ → Except Err (ℤ × WithBot ℚ)
  | 0 => .ok (0, ⊥)
  | n + 1 =>
    match snrFromMcs (n + 1) tbl with
    | .error e => .error e
    | .ok s =>
      if neededPower minTx gain np s ≤ maxTx - backoffOf (n + 1) tbl then
        .ok ((n : ℤ) + 1, (neededPower minTx gain np s : ℚ))
      else adjustLoop tbl minTx maxTx gain np n

/-- `link_budget_calculator.py:401-426` `adjust_tx_power_with_backoff`. A level
that is not positive skips the loop. -/
def adjustTxPower (mcs : ℤ) (tbl : List McsRow) (minTx : Option ℚ) (maxTx gain np : ℚ) :
    Except Err (ℤ × WithBot ℚ) :=
  adjustLoop tbl minTx maxTx gain np mcs.toNat

/-- `common/configuration/configs.py:168-284` `SectorParams`, the fields used
here. `mcsMap` is the table after loading. -/
structure SectorParams where
  maximumTxPower : ℚ
  minimumTxPower : Option ℚ := none
  minimumMcsLevel : Option ℤ := none
  antennaBoresightGain : ℚ := 0
  txDiversityGain : ℚ := 0
  noiseFigure : ℚ := 0
  thermalNoisePower : ℚ := 0
  mcsMap : List McsRow := []
  deriving DecidableEq, Repr

/-- `min(keys, key=lambda key: abs(key - x))`: the first of the nearest keys. -/
def nearestKey (x : ℚ) : List ℚ → Option ℚ
  | [] => none
  | k :: ks => some (ks.foldl (fun b c => if |c - x| < |b - x| then c else b) k)

/-- `link_budget_calculator.py:149-168`: look-up of the closest available value
(`d.get(x) or d[nearest]`; an exact hit is its own nearest key, so the two
branches agree). -/
def nearestVal {ν : Type} (d : Dict ℚ ν) (x : ℚ) : Except Err ν :=
  match nearestKey x d.keys with
  | none => .error .valueError
  | some k =>
    match d.get? k with
    | none => .error .keyError
    | some v => .ok v

/-- `link_budget_calculator.py:349-357` `get_max_boresight_gain_from_pattern_file`:
the maximum over rows of the maximum over a row. -/
def maxBoresightGain (d : Dict ℚ (Dict ℚ ℚ)) : Except Err ℚ :=
  match d.vals.mapM (fun r => pyMax r.vals) with
  | none => .error .valueError
  | some ms =>
    match pyMax ms with
    | none => .error .valueError
    | some g => .ok g

/-- `link_budget_calculator.py:124-171` `extract_gain_from_radio_pattern` for no
pattern and for a scan pattern. The antenna pattern format (173-204) is in
`Verif.Model.LinkBudget`. -/
def extractGain (boresight diversity : ℚ) (pattern : Option (Dict ℚ (Dict ℚ ℚ)))
    (azDev elDev : ℚ) : Except Err ℚ :=
  match pattern with
  | none => .ok (boresight + diversity)
  | some d =>
    match maxBoresightGain d with
    | .error e => .error e
    | .ok g =>
      match nearestVal d azDev with
      | .error e => .error e
      | .ok r =>
        match nearestVal r elDev with
        | .error e => .error e
        | .ok v => .ok (boresight + (v - g) + diversity)

/-- `link_budget_calculator.py:360-386` `get_max_tx_power`. The gain call of
369-375 has no pattern, so it is boresight plus diversity gain (148). -/
def maxTxPower (p : SectorParams) (maxEirp : Option ℚ) : ℚ :=
  let capped :=
    match maxEirp with
    | none => p.maximumTxPower
    | some e => min p.maximumTxPower (e - (p.antennaBoresightGain + p.txDiversityGain))
  match p.minimumTxPower with
  | none => capped
  | some lo => max lo capped

/-- `common/structs.py` `LinkBudgetMeasurements`. -/
structure LinkBudget where
  mcsLevel : ℤ
  rsl : ℚ
  snr : ℚ
  capacity : ℚ
  txPower : ℚ
  deriving DecidableEq, Repr

/-- `link_budget_calculator.py:516-602` `fspl_based_estimation`, as a function of
the net gain (558-568), the noise power of the receiver (569) and the minimum
power of the transmitter. -/
def estimate (gain np maxTx : ℚ) (minTx : Option ℚ) (tbl : List McsRow) :
    Except Err LinkBudget :=
  match mcsFromSnr (maxTx + gain - np) tbl with
  | .error e => .error e
  | .ok start =>
    match adjustTxPower start tbl minTx maxTx gain np with
    | .error e => .error e
    | .ok (level, _) =>
      let txPower := maxTx - backoffOf level tbl
      .ok { mcsLevel := level, rsl := txPower + gain, snr := txPower + gain - np,
            capacity := capacityOf level tbl, txPower := txPower }

/-- `los/helper.py:448-468`: the binary search loop; the result is the final
`lower_bound`. -/
def searchLoop (cap : ℤ → Except Err ℚ) (lo hi : ℤ) : Except Err ℤ :=
  if _h : lo < hi then
    match cap ((lo + hi) / 2) with
    | .error e => .error e
    | .ok c => if 0 < c then searchLoop cap ((lo + hi) / 2 + 1) hi
               else searchLoop cap lo ((lo + hi) / 2)
  else .ok lo
  termination_by (hi - lo).toNat
  decreasing_by all_goals omega

/-- `los/helper.py:420-488` `search_max_los_dist_based_on_capacity`, as a function
of the capacity at a distance. -/
def searchMaxLos (cap : ℤ → Except Err ℚ) (lo hi : ℤ) : Except Err (Option ℤ) :=
  match searchLoop cap lo hi with
  | .error e => .error e
  | .ok d =>
    match cap d with
    | .error e => .error e
    | .ok c => if 0 < c then .ok none else .ok (some d)

/-- `configs.py:287-330` `DeviceData`, the fields used by the range search. -/
structure RfDevice where
  sku : String
  isCn : Bool
  params : SectorParams
  deriving DecidableEq, Repr

/-- `los/helper.py:342-369`: the rate table of the receiver, cut at the minimum
level of the link kind. -/
def pairTable (minDn minCn : Option ℤ) (rx : RfDevice) : Except Err (List McsRow) :=
  match if rx.isCn then minCn else minDn with
  | none => .ok rx.params.mcsMap
  | some lo =>
    match rx.params.mcsMap.filter (fun r => decide (lo ≤ r.mcs)) with
    | [] => .error .config
    | r :: rs => .ok (r :: rs)

/-- `los/helper.py:342-383` with `common/constants.py:22, 26`: the range of one
ordered device pair. `gain tx rx d` is the net gain at distance `d` (metres). -/
def pairRange (gain : RfDevice → RfDevice → ℤ → ℚ) (maxEirp : Option ℚ)
    (minDn minCn : Option ℤ) (tx rx : RfDevice) : Except Err ℤ :=
  match pairTable minDn minCn rx with
  | .error e => .error e
  | .ok tbl =>
    match searchMaxLos (fun d =>
        (estimate (gain tx rx d) (rx.params.noiseFigure + rx.params.thermalNoisePower)
          (maxTxPower tx.params maxEirp) tx.params.minimumTxPower tbl).map LinkBudget.capacity)
        0 10000 with
    | .error e => .error e
    | .ok none => .error .los
    | .ok (some d) => .ok d

/-- `los/helper.py:388-406`: record the range of `(tx, rx)`, lifting both
directions to the larger one when the reverse is already recorded. -/
def recordRange (acc : Dict (String × String) ℤ) (tx rx : String) (d : ℤ) :
    Dict (String × String) ℤ :=
  match acc.get? (rx, tx) with
  | some d' => (acc.set (rx, tx) (max d' d)).set (tx, rx) (max d' d)
  | none => acc.set (tx, rx) d

/-- `los/helper.py:341-406`: the inner loop over receivers. -/
def rxLoop (range : RfDevice → RfDevice → Except Err ℤ) (tx : RfDevice) :
    List RfDevice → Dict (String × String) ℤ → Except Err (Dict (String × String) ℤ)
  | [], acc => .ok acc
  | rx :: rest, acc =>
    match range tx rx with
    | .error e => .error e
    | .ok d => rxLoop range tx rest (recordRange acc tx.sku rx.sku d)

/-- `los/helper.py:408-415`: cap every recorded range. -/
def capRanges (ub : Option ℤ) (acc : Dict (String × String) ℤ) : Dict (String × String) ℤ :=
  match ub with
  | none => acc
  | some u => acc.map (fun p => if u < p.2 then (p.1, u) else p)

/-- `los/helper.py:338-417`: the outer loop over transmitters. -/
def txLoop (range : RfDevice → RfDevice → Except Err ℤ) (ub : Option ℤ) (all : List RfDevice) :
    List RfDevice → Dict (String × String) ℤ → Except Err (Dict (String × String) ℤ)
  | [], acc => .ok acc
  | tx :: rest, acc =>
    if tx.isCn then txLoop range ub all rest acc
    else
      match rxLoop range tx all acc with
      | .error e => .error e
      | .ok acc' => txLoop range ub all rest (capRanges ub acc')

/-- `los/helper.py:310-417` `get_max_los_dist_for_device_pairs`. -/
def maxLosDistForPairs (gain : RfDevice → RfDevice → ℤ → ℚ) (devices : List RfDevice)
    (maxEirp : Option ℚ) (minDn minCn ub : Option ℤ) :
    Except Err (Dict (String × String) ℤ) :=
  txLoop (pairRange gain maxEirp minDn minCn) ub devices devices []

/-- A row of the rate-table file after parsing to numbers
(`csv_library.py:437-450`); the textual checks of 378-434 are in
`Verif.Model.RadioFiles`. -/
structure RawRow where
  mcs : ℚ
  snr : ℚ
  mbps : ℚ
  txBackoff : ℚ
  deriving DecidableEq, Repr

/-- `csv_library.py:452-457` `_get_ordering`: indices in stable increasing order
of value. -/
def orderingOf (xs : List ℚ) : List ℕ :=
  ((xs.zipIdx).mergeSort (fun a b => decide (a.1 ≤ b.1))).map Prod.snd

/-- Python `int(x)` of a float: truncation toward zero. -/
def pyInt (x : ℚ) : ℤ := if 0 ≤ x then ⌊x⌋ else ⌈x⌉

/-- `csv_library.py:478-495`: the row filter. -/
def keepRow (p : SectorParams) (r : RawRow) : Bool :=
  (match p.minimumTxPower with
    | none => true
    | some lo => decide (lo ≤ p.maximumTxPower - r.txBackoff)) &&
  (match p.minimumMcsLevel with
    | none => true
    | some m => decide ((m : ℚ) ≤ r.mcs))

/-- `csv_library.py:363-496` `read_mcs_snr_mbps_map_data`, from the parsed rows. -/
def readRateTable (p : SectorParams) (rows : List RawRow) : Except Err (List McsRow) :=
  let o := orderingOf (rows.map RawRow.mcs)
  if o = orderingOf (rows.map RawRow.snr) ∧ o = orderingOf (rows.map RawRow.mbps) ∧
      o = orderingOf (rows.map RawRow.txBackoff) then
    let keep := (rows.filter (keepRow p)).map fun r =>
      (⟨pyInt r.mcs, r.snr, r.mbps, r.txBackoff⟩ : McsRow)
    match p.minimumMcsLevel with
    | none => .ok keep
    | some m =>
      match pyMax (rows.map RawRow.mcs) with
      | none => .error .valueError
      | some top => if (m : ℚ) ≤ top then .ok keep else .error .data
  else .error .data

/-- `common/constants.py:53-64` `DEFAULT_MCS_SNR_MBPS_MAP`. -/
def defaultRateTable : List McsRow :=
  [⟨3, 3, 0, 0⟩, ⟨4, 9/2, 135/2, 0⟩, ⟨5, 5, 115, 0⟩, ⟨6, 11/2, 260, 0⟩,
   ⟨7, 15/2, 905/2, 0⟩, ⟨8, 9, 645, 0⟩, ⟨9, 12, 2965/4, 0⟩, ⟨10, 14, 1030, 2⟩,
   ⟨11, 16, 1415, 4⟩, ⟨12, 18, 1800, 6⟩]

/-- `configs.py:278-283`: the rate table of a device; `none` is no file given. -/
def loadRateTable (p : SectorParams) (file : Option (List RawRow)) : Except Err (List McsRow) :=
  match file with
  | none => .ok defaultRateTable
  | some rows => readRateTable p rows

end Verif
