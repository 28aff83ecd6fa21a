import Verif.Model.Angles
import Verif.Model.Rf

/-!
# Interference and transmit power control

`analyze_interference` with everything below it
(`optimization/topology_interference.py:114-476`) and
`update_link_caps_with_sinr` (`optimization/topology_operations.py:507-616`) with
`add_link_capacities(with_deviation=True)`
(`optimization/topology_preparation.py:65-139`).

The measurements of the links are a function of the link id, apart from the
topology. Geometry, antenna patterns and the two conversions between dBm and mW
are parameters (`RadioEnv`); the theorems hold for all of them. Floats are exact
rationals with `-inf` and `NaN`; log lines and warnings are left out.
-/

namespace Verif
namespace Sinr

/-- A float of the link budget in dB or dBm: `NaN`, `-inf` or a number. `+inf` does
not occur: nothing is ever subtracted from a number except a number. -/
inductive Db
  | nan
  | off
  | val (q : ℚ)
  deriving DecidableEq, Repr

/-- Float addition. -/
def Db.add : Db → Db → Db
  | .val a, .val b => .val (a + b)
  | .off, .off => .off
  | .off, .val _ => .off
  | .val _, .off => .off
  | _, _ => .nan

/-- Float subtraction; `x - (-inf)` for a number `x` does not occur. -/
def Db.sub : Db → Db → Db
  | .val a, .val b => .val (a - b)
  | .off, .val _ => .off
  | _, _ => .nan

/-- A power as `adjust_tx_power_with_backoff` returns it. -/
def Db.ofPower : WithBot ℚ → Db
  | none => .off
  | some q => .val q

/-- `LinkBudgetMeasurements`, `common/structs.py:95-108`. -/
structure Meas where
  mcs : ℤ
  rsl : Db
  snr : Db
  sinr : Db
  capacity : ℚ
  power : Db
  deriving DecidableEq, Repr

/-- What the two functions read from devices, antenna patterns and geometry. -/
structure RadioEnv where
  /-- `log_to_linear` of a number, `link_budget_calculator.py:50-52`. -/
  lin : ℚ → ℚ
  /-- `linear_to_log`, `link_budget_calculator.py:55-57`. -/
  log : ℚ → ℚ
  /-- `Link.tx_dev`, `link.py:243-248`, of a link with sectors. -/
  txDev : LinkId → ℚ
  /-- `Link.rx_dev`, `link.py:250-255`, of a link with sectors. -/
  rxDev : LinkId → ℚ
  /-- `Link.el_dev`, `link.py:257-270`. -/
  elDev : LinkId → ℚ
  /-- `_compute_link_interference_net_gain`, `topology_interference.py:83-111`, of a
  path and the four deviations. -/
  pathGain : LinkId → ℚ → ℚ → ℚ → ℚ → ℚ
  /-- Net gain of a link along its own beam, `link_budget_calculator.py:558-568`. -/
  gain : LinkId → ℚ
  /-- `get_noise_power` of the device of a site, `link_budget_calculator.py:438-442`. -/
  noise : SiteId → ℚ
  /-- `max_tx_power[site.device.device_sku]`, `topology_operations.py:546-551`. -/
  maxTx : SiteId → ℚ
  /-- `minimum_tx_power` of the device of a site. -/
  minTx : SiteId → Option ℚ
  /-- `mcs_map` of the device of a site. -/
  table : SiteId → List McsRow
  /-- `OptimizerParams.pop_capacity`. -/
  popCapacity : ℚ
  /-- `math.isclose(_, _, abs_tol=EPSILON)`. -/
  close : Db → Db → Bool

/-- `log_to_linear`, `link_budget_calculator.py:50-52`, with `10 ** (-inf) = 0`. It is
never applied to `NaN`: no transmit power is `NaN`. -/
def RadioEnv.linDb (R : RadioEnv) : Db → ℚ
  | .val q => R.lin q
  | _ => 0

/-- The polarity of a CN served by a site, `topology_interference.py:374-380`. -/
def servedPolarity : PolarityType → PolarityType
  | .even => .odd
  | .odd => .even
  | .unassigned => .unassigned

/-- One turn of the loop of `_get_cn_polarities`,
`topology_interference.py:364-391`. -/
def cnPolStep (t : Topology) (d : Dict SiteId PolarityType) (l : Link) :
    Dict SiteId PolarityType :=
  if l.status.active && (t.sites.get? l.rx).any (fun s => s.siteType == .cn) then
    let p := servedPolarity (((t.sites.get? l.tx).map Site.polarity).getD .unassigned)
    match d.get? l.rx with
    | none => d.set l.rx p
    | some q => if q ≠ p then d.set l.rx .unassigned else d
  else d

/-- `_get_cn_polarities`, `topology_interference.py:360-392`. -/
def cnPolarities (t : Topology) : Dict SiteId PolarityType :=
  t.links.vals.foldl (cnPolStep t) []

/-- `_compatible_polarity`, `topology_interference.py:395-439`. The link holds its two
sites, so the look-up of the sites cannot fail in the code. -/
def compatiblePolarity (t : Topology) (cn : Dict SiteId PolarityType) (l : Link) :
    Except Err Bool :=
  match t.sites.get? l.tx, t.sites.get? l.rx with
  | some a, some b =>
    if !a.status.active || !b.status.active then .ok false
    else
      match if b.siteType = .cn then cn.get? l.rx else some b.polarity with
      | none => .error .keyError
      | some p =>
        .ok ((decide (a.polarity ≠ p) && decide (a.polarity ≠ .unassigned) &&
          decide (p ≠ .unassigned)) ||
          (decide (a.polarity = .unassigned) || decide (p = .unassigned)))
  | _, _ => .ok false

/-- `_compatible_channel`, `topology_interference.py:442-476`, for the two sectors of
a link; `UNASSIGNED_CHANNEL` is -1. -/
def compatibleChannel (t : Topology) (a b : SectorId) : Bool :=
  match t.sectors.get? a, t.sectors.get? b with
  | some x, some y =>
    if !x.status.active || !y.status.active then false
    else decide (x.channel = y.channel) || (decide (x.channel = -1) || decide (y.channel = -1))
  | _, _ => false

/-- `sector.status_type in StatusType.active_status()`. -/
def sectorActive (t : Topology) (a : SectorId) : Bool :=
  (t.sectors.get? a).any (fun s => s.status.active)

/-- Loop of `Topology.sector_connectivity_reverse`, `topology.py:76-91`. -/
def connRevStep (d : Dict SectorId (Dict SectorId LinkId)) (l : Link) :
    Dict SectorId (Dict SectorId LinkId) :=
  match l.sectors with
  | none => d
  | some (a, b) => d.set b (((d.get? b).getD []).set a l.id)

/-- `Topology.sector_connectivity_reverse`, `topology.py:76-91`. -/
def sectorConnectivityReverse (t : Topology) : Dict SectorId (Dict SectorId LinkId) :=
  t.links.vals.foldl connRevStep []

/-- The map of `compute_link_net_gain_map`: path, interfered link, interfering link. -/
abbrev GainMap := Dict LinkId (Dict LinkId (Dict LinkId ℚ))

/-- `m.setdefault(p, {}).setdefault(r, {})[x] = g`,
`topology_interference.py:353-357`. -/
def GainMap.put (m : GainMap) (p r x : LinkId) (g : ℚ) : GainMap :=
  let row := (m.get? p).getD []
  m.set p (row.set r (((row.get? r).getD []).set x g))

/-- The gain over path `P` from link `x` onto link `r`,
`topology_interference.py:328-351`. -/
def pairGain (R : RadioEnv) (P r x : Link) : ℚ :=
  R.pathGain P.id (angleDelta (R.txDev P.id) (R.txDev x.id))
    (angleDelta (R.rxDev P.id) (R.rxDev r.id))
    (angleDelta (R.elDev P.id) (R.elDev x.id))
    (-(angleDelta (R.elDev P.id) (R.elDev r.id)))

/-- Inner loop of `_calculate_net_gain_on_rx_links` over the links of the transmitting
sector, `topology_interference.py:306-357`; `dst` is the receiving sector of the path,
`frm` the transmitting sector of the interfered link. -/
def gainTxLoop (t : Topology) (R : RadioEnv) (P r : Link) (dst frm : SectorId) :
    List (SectorId × LinkId) → GainMap → Except Err GainMap
  | [], m => .ok m
  | (s, id) :: rest, m =>
    if s = dst then gainTxLoop t R P r dst frm rest m
    else if s = frm then gainTxLoop t R P r dst frm rest m
    else
      match t.links.get? id with
      | none => .error .keyError
      | some x =>
        if !x.isWireless || !x.status.active then gainTxLoop t R P r dst frm rest m
        else gainTxLoop t R P r dst frm rest (m.put P.id r.id id (pairGain R P r x))

/-- Outer loop of `_calculate_net_gain_on_rx_links` over the links of the receiving
sector, `topology_interference.py:289-357`; `a` and `b` are the sectors of the path. -/
def gainRxLoop (t : Topology) (R : RadioEnv) (P : Link) (a b : SectorId)
    (txRow : List (SectorId × LinkId)) :
    List (SectorId × LinkId) → GainMap → Except Err GainMap
  | [], m => .ok m
  | (s, id) :: rest, m =>
    if s = a then gainRxLoop t R P a b txRow rest m
    else
      match t.links.get? id with
      | none => .error .keyError
      | some r =>
        if !r.isWireless || !r.status.active then gainRxLoop t R P a b txRow rest m
        else
          match gainTxLoop t R P r b s txRow m with
          | .error e => .error e
          | .ok m' => gainRxLoop t R P a b txRow rest m'

/-- The links of a sector without the redundant ones,
`topology_interference.py:235-246`. The code deletes them from the cached row for
good, which leaves later turns with the same row. -/
def dropRedundant (t : Topology) : List (SectorId × LinkId) → Except Err (List (SectorId × LinkId))
  | [] => .ok []
  | (s, id) :: rest =>
    match t.links.get? id with
    | none => .error .keyError
    | some l =>
      match dropRedundant t rest with
      | .error e => .error e
      | .ok r => .ok (if l.isRedundant then r else (s, id) :: r)

/-- Loop of `compute_link_net_gain_map`, `topology_interference.py:212-267`. -/
def gainLoop (t : Topology) (R : RadioEnv) (cn : Dict SiteId PolarityType) :
    List Link → GainMap → Except Err GainMap
  | [], m => .ok m
  | P :: rest, m =>
    if !P.isWireless then gainLoop t R cn rest m
    else
      match P.sectors with
      | none => gainLoop t R cn rest m
      | some (a, b) =>
        if !(sectorActive t a && sectorActive t b) then gainLoop t R cn rest m
        else
          match compatiblePolarity t cn P with
          | .error e => .error e
          | .ok false => gainLoop t R cn rest m
          | .ok true =>
            if !compatibleChannel t a b then gainLoop t R cn rest m
            else
              match dropRedundant t ((t.sectorConnectivity.get? a).getD []) with
              | .error e => .error e
              | .ok [] => gainLoop t R cn rest m
              | .ok (e :: es) =>
                let rxRow := ((sectorConnectivityReverse t).get? b).getD []
                if rxRow.length ≤ 1 then gainLoop t R cn rest m
                else
                  match gainRxLoop t R P a b (e :: es) rxRow m with
                  | .error e => .error e
                  | .ok m' => gainLoop t R cn rest m'

/-- `compute_link_net_gain_map`, `topology_interference.py:192-269`. -/
def netGainMap (t : Topology) (R : RadioEnv) : Except Err GainMap :=
  gainLoop t R (cnPolarities t) t.links.vals []

/-- `topology_interference.py:178-186`: the power received from the interfering links,
averaged over them. -/
def meanPower (R : RadioEnv) (M : LinkId → Meas) (row : Dict LinkId ℚ) : ℚ :=
  (row.foldl (fun s p => s + R.linDb ((M p.1).power.add (.val p.2))) 0) / row.length

/-- `topology_interference.py:170-187`: the loop over the interfered links of one
path. -/
def rslRow (R : RadioEnv) (M : LinkId → Meas) :
    List (LinkId × Dict LinkId ℚ) → Dict LinkId ℚ → Dict LinkId ℚ
  | [], acc => acc
  | (r, row) :: rest, acc =>
    if row.length = 0 then rslRow R M rest acc
    else rslRow R M rest (acc.set r ((acc.get? r).getD 0 + meanPower R M row))

/-- `compute_link_rsl_map`, `topology_interference.py:144-189`, with the gain map
given. -/
def rslMap (t : Topology) (R : RadioEnv) (G : GainMap) (M : LinkId → Meas) : Dict LinkId ℚ :=
  t.links.keys.foldl (fun acc p => rslRow R M ((G.get? p).getD []) acc) []

/-- `topology_interference.py:131-141`: the SINR of one link. -/
def sinrOf (R : RadioEnv) (I : Dict LinkId ℚ) (m : Meas) (l : Link) : Db :=
  if m.rsl = .off then .off
  else m.rsl.sub (.val (R.log ((I.get? l.id).getD 0 + R.lin (R.noise l.rx))))

/-- Assignment to the measurements of one link. -/
def put (M : LinkId → Meas) (id : LinkId) (m : Meas) : LinkId → Meas :=
  fun i => if i = id then m else M i

/-- One turn of the loop of `analyze_interference`,
`topology_interference.py:124-141`. -/
def sinrStep (R : RadioEnv) (I : Dict LinkId ℚ) (M : LinkId → Meas) (l : Link) : LinkId → Meas :=
  if !l.isWireless || !l.status.active then M
  else put M l.id { M l.id with sinr := sinrOf R I (M l.id) l }

/-- `analyze_interference`, `topology_interference.py:114-141`, with the gain map
given. -/
def analyzeWith (t : Topology) (R : RadioEnv) (G : GainMap) (M : LinkId → Meas) :
    LinkId → Meas :=
  t.links.vals.foldl (sinrStep R (rslMap t R G M)) M

/-- `analyze_interference`, `topology_interference.py:114-141`, without a gain map
(line 163-164 computes it). -/
def analyze (t : Topology) (R : RadioEnv) (M : LinkId → Meas) : Except Err (LinkId → Meas) :=
  match netGainMap t R with
  | .error e => .error e
  | .ok G => .ok (analyzeWith t R G M)

/-- `get_mcs_from_snr`, `link_budget_calculator.py:452-468`, on any float. -/
def mcsOf (x : Db) (tbl : List McsRow) : Except Err ℤ :=
  match x with
  | .nan => .ok 0
  | .off => if tbl = [] then .error .valueError else .ok 0
  | .val q => mcsFromSnr q tbl

/-- `adjust_tx_power_with_backoff`, `link_budget_calculator.py:401-426`, on floats. With
a positive level gain and noise are numbers. -/
def adjust (level : ℤ) (tbl : List McsRow) (minTx : Option ℚ) (maxTx : ℚ) (gain ni : Db) :
    Except Err (ℤ × Db) :=
  match gain, ni with
  | .val g, .val n =>
    match adjustTxPower level tbl minTx maxTx g n with
    | .error e => .error e
    | .ok (k, p) => .ok (k, .ofPower p)
  | _, _ => .ok (0, .off)

/-- One turn of the loop of `add_link_capacities(with_deviation=True)`,
`topology_preparation.py:84-138`. `sinr_dbm` starts as `snr_dbm`
(`structs.py:107-108`). -/
def fullPower (R : RadioEnv) (l : Link) : Except Err Meas :=
  if !l.isWireless then .ok ⟨0, .off, .off, .off, R.popCapacity, .off⟩
  else
    match l.sectors with
    | none => .ok ⟨0, .off, .off, .off, 0, .off⟩
    | some _ =>
      match estimate (R.gain l.id) (R.noise l.rx) (R.maxTx l.tx) (R.minTx l.tx) (R.table l.rx) with
      | .error e => .error e
      | .ok b => .ok ⟨b.mcsLevel, .val b.rsl, .val b.snr, .val b.snr, b.capacity, .val b.txPower⟩

/-- `add_link_capacities(with_deviation=True)`, `topology_preparation.py:65-139`. -/
def addCapacities (R : RadioEnv) : List Link → (LinkId → Meas) → Except Err (LinkId → Meas)
  | [], M => .ok M
  | l :: rest, M =>
    match fullPower R l with
    | .error e => .error e
    | .ok m => addCapacities R rest (put M l.id m)

/-- The body of the loop over the links in use, `topology_operations.py:564-602`; the
flag says whether the power is stable. -/
def tpcLink (R : RadioEnv) (gain : Db) (l : Link) (m : Meas) : Except Err (Meas × Bool) :=
  match mcsOf m.sinr (R.table l.rx) with
  | .error e => .error e
  | .ok level =>
    match adjust level (R.table l.rx) (R.minTx l.tx) (R.maxTx l.tx) gain (m.rsl.sub m.sinr) with
    | .error e => .error e
    | .ok (k, p) =>
      .ok ({ m with
        mcs := k
        capacity := capacityOf level (R.table l.rx)
        power := p
        rsl := p.add gain
        snr := (p.add gain).sub (.val (R.noise l.rx)) }, R.close p m.power)

/-- The loop over the links in use, `topology_operations.py:562-602`, with the number of
stable powers. -/
def tpcRound (R : RadioEnv) (gain : LinkId → Db) :
    List Link → (LinkId → Meas) → ℕ → Except Err ((LinkId → Meas) × ℕ)
  | [], M, c => .ok (M, c)
  | l :: rest, M, c =>
    match tpcLink R (gain l.id) l (M l.id) with
    | .error e => .error e
    | .ok (m, stable) =>
      tpcRound R gain rest (put M l.id m) (if stable then c + 1 else c)

/-- `topology_operations.py:558-609`: at most `n` rounds; stops when all powers are
stable. -/
def tpcLoop (t : Topology) (R : RadioEnv) (G : GainMap) (gain : LinkId → Db) (act : List Link) :
    ℕ → (LinkId → Meas) → Except Err (LinkId → Meas)
  | 0, M => .ok M
  | n + 1, M =>
    match tpcRound R gain act (analyzeWith t R G M) 0 with
    | .error e => .error e
    | .ok (M', c) => if c = act.length then .ok M' else tpcLoop t R G gain act n M'

/-- `topology_operations.py:612-616`: level and capacity from the SINR. -/
def finalCaps (R : RadioEnv) : List Link → (LinkId → Meas) → Except Err (LinkId → Meas)
  | [], M => .ok M
  | l :: rest, M =>
    if !l.isWireless then finalCaps R rest M
    else
      match mcsOf (M l.id).sinr (R.table l.rx) with
      | .error e => .error e
      | .ok k =>
        finalCaps R rest (put M l.id
          { M l.id with mcs := k, capacity := capacityOf k (R.table l.rx) })

/-- The wireless links in use, `topology_operations.py:539-544`. -/
def linksInUse (t : Topology) : List Link :=
  t.links.vals.filter (fun l => l.status.active && l.isWireless)

/-- `update_link_caps_with_sinr`, `topology_operations.py:507-616`; `M0` are the
measurements before the call. -/
def updateLinkCaps (t : Topology) (R : RadioEnv) (maxIterations : ℤ) (M0 : LinkId → Meas) :
    Except Err (LinkId → Meas) :=
  if maxIterations < 1 then .error .optimizer
  else
    match addCapacities R t.links.vals M0 with
    | .error e => .error e
    | .ok M1 =>
      match netGainMap t R with
      | .error e => .error e
      | .ok G =>
        match (if 0 < (linksInUse t).length then
            tpcLoop t R G (fun id => (M1 id).rsl.sub (M1 id).power) (linksInUse t)
              maxIterations.toNat M1
          else .ok M1) with
        | .error e => .error e
        | .ok M2 => finalCaps R t.links.vals (analyzeWith t R G M2)

end Sinr
end Verif
