import Verif.Model.Hops

/-! # `update_topology_with_solution`, `optimization/topology_optimization.py:531-669` -/

namespace Verif

/-- Sequential loop that stops at the first exception. -/
def foldOut {α : Type} (f : Topology → α → Topology.Out) : Topology → List α → Topology.Out
  | t, [] => (t, none)
  | t, a :: as =>
    match f t a with
    | (t1, some e) => (t1, some e)
    | (t1, none) => foldOut f t1 as

/-- The part of `OptimizationSolution` that is applied to a topology. The
dictionaries with `.get(key, default)` access are total functions. -/
structure Solution where
  site : SiteId → Int := fun _ => 0
  odd : SiteId → Int := fun _ => 0
  even : SiteId → Int := fun _ => 0
  sector : SectorId → Int := fun _ => 0
  channel : SectorId → Int := fun _ => -1
  link : LinkId → Int := fun _ => 0

/-- `current_status not in StatusType.immutable_status() | {UNREACHABLE}`. -/
def StatusType.open? (st : StatusType) : Bool := !(st.immutable || st == .unreachable)

/-- `PROPOSED if decision == 1 else CANDIDATE`. -/
def decided (d : Int) : StatusType := if d = 1 then .proposed else .candidate

namespace Topology

/-- Loop body of `_update_topology_sites`, `topology_optimization.py:566-588`. -/
def updateSite (sol : Solution) (t : Topology) (id : SiteId) : Out :=
  match t.sites.get? id with
  | none => (t, some .keyError)
  | some s =>
    let o := if s.status.open? then t.setSiteStatus id (decided (sol.site id)) else (t, none)
    match o with
    | (t1, some e) => (t1, some e)
    | (t1, none) =>
      if sol.odd id = 1 ∧ sol.even id = 1 then (t1, some .optimizer)
      else
        let p : PolarityType :=
          if sol.odd id = 1 then .odd else if sol.even id = 1 then .even else .unassigned
        ({ t1 with sites := t1.sites.modify id (fun s => { s with polarity := p }) }, none)

/-- Loop body of `_update_topology_sectors`, `topology_optimization.py:599-611`. -/
def updateSector (sol : Solution) (t : Topology) (id : SectorId) : Out :=
  match t.sectors.get? id with
  | none => (t, some .keyError)
  | some s =>
    let o := if s.status.open? then t.setSectorStatus id (decided (sol.sector id)) else (t, none)
    match o with
    | (t1, some e) => (t1, some e)
    | (t1, none) =>
      ({ t1 with sectors := t1.sectors.modify id (fun s => { s with channel := sol.channel id }) }, none)

/-- Loop body of `_update_topology_links`, `topology_optimization.py:621-630`. -/
def updateLink (sol : Solution) (t : Topology) (id : LinkId) : Out :=
  match t.links.get? id with
  | none => (t, some .keyError)
  | some l =>
    if l.status.open? then t.setLinkStatus id (decided (sol.link id)) else (t, none)

/-- Demotion of the site of a disconnected sector, `topology_optimization.py:644-649`. -/
def withdrawSite (t : Topology) (id : SiteId) : Out :=
  match t.sites.get? id with
  | none => (t, some .keyError)
  | some s => if s.status.open? then t.setSiteStatus id .candidate else (t, none)

/-- First loop of `_remove_disconnected_components_from_topology`,
`topology_optimization.py:640-655`. -/
def withdrawSector (hc : Dict SiteId Nat) (t : Topology) (id : SectorId) : Out :=
  match t.sectors.get? id with
  | none => (t, some .keyError)
  | some x =>
    if hc.has x.site then (t, none)
    else
      match t.withdrawSite x.site with
      | (t1, some e) => (t1, some e)
      | (t1, none) => if x.status.open? then t1.setSectorStatus id .candidate else (t1, none)

/-- Second loop, `topology_optimization.py:657-669`. -/
def withdrawLink (t : Topology) (id : LinkId) : Out :=
  match t.links.get? id with
  | none => (t, some .keyError)
  | some l =>
    if l.status.active &&
        (t.siteStatus l.tx == some .candidate || t.siteStatus l.rx == some .candidate) &&
        l.status.open?
    then t.setLinkStatus id .candidate
    else (t, none)

/-- Run a second computation if the first did not raise. -/
def Out.andThen (o : Out) (k : Topology → Out) : Out :=
  match o with
  | (t, some e) => (t, some e)
  | (t, none) => k t

/-- The three update loops, `topology_optimization.py:545-552`. -/
def applySolution (sol : Solution) (t : Topology) : Out :=
  Out.andThen (foldOut (updateSite sol) t t.sites.keys) fun t1 =>
  Out.andThen (foldOut (updateSector sol) t1 t1.sectors.keys) fun t2 =>
  foldOut (updateLink sol) t2 t2.links.keys

/-- `_remove_disconnected_components_from_topology`, `topology_optimization.py:633-669`;
`none` only if the hop loop did not finish (impossible, C08). -/
def removeDisconnected (t : Topology) : Option Out :=
  (t.hopsFromPops StatusType.active).map fun hc =>
    Out.andThen (foldOut (withdrawSector hc) t t.sectors.keys) fun t1 =>
    foldOut withdrawLink t1 t1.links.keys

/-- `update_topology_with_solution`, `topology_optimization.py:531-553`. -/
def updateWithSolution (sol : Solution) (t : Topology) : Option Out :=
  match applySolution sol t with
  | (t1, some e) => some (t1, some e)
  | (t1, none) => removeDisconnected t1

end Topology
end Verif
