import Verif.Model.Los
import Verif.Model.Status

/-!
# Building the candidate topology from the LOS result

`terragraph_planner/los/helper.py:812-962`: adding the picked sites, once for each device, and the links between
them. The distance and the elevation angle of a pair of sites are parameters.
-/

namespace Verif
open Topology

/-- A site of the list of all sites: one given by the user or in the base topology, or a detected one, which gets a
site of the topology for each device (`DetectedSite.to_site`, `topology_models/site.py:235-246`). -/
inductive LosItem
  | given (s : Site)
  | detected (typ : SiteType) (toSite : Device → Site)

/-- The sites of the topology a site stands for, `los/helper.py:896-913`. -/
def LosItem.sites (devs : List Device) : LosItem → List Site
  | .given s => [s]
  | .detected typ toSite => (devs.filter fun d => d.deviceType = (if typ = .cn then .cn else .dn)).map toSite

/-- The addition of the sites that are not in the topology, `los/helper.py:898-913`: the topology and the sites
added. -/
def addNew : Topology → List Site → Topology × List Site
  | t, [] => (t, [])
  | t, s :: rest =>
    if t.sites.has s.id then addNew t rest
    else ((addNew (t.addSite s).1 rest).1, s :: (addNew (t.addSite s).1 rest).2)

/-- `add_sites_to_topology`, `los/helper.py:869-915`, from position `i`: the topology and, for each position, the
sites of `site_map`. -/
def addItems (devs : List Device) (picked : List Nat) : Nat → Topology → List LosItem → Topology × List (List Site)
  | _, t, [] => (t, [])
  | i, t, x :: rest =>
    if picked.contains i then
      ((addItems devs picked (i + 1) (addNew t (x.sites devs)).1 rest).1,
        (addNew t (x.sites devs)).2 :: (addItems devs picked (i + 1) (addNew t (x.sites devs)).1 rest).2)
    else ((addItems devs picked (i + 1) t rest).1, [] :: (addItems devs picked (i + 1) t rest).2)

/-- A link to add: the positions of the sites and the sites. -/
structure LosReq where
  i : Nat
  j : Nat
  tx : Site
  rx : Site
  deriving DecidableEq, Repr

/-- The loops of `add_links_to_topology`, `los/helper.py:932-940`. -/
def losReqs (picked : List Nat) (rx : List (List Nat)) (M : List (List Site)) : List LosReq :=
  (List.range rx.length).flatMap fun i =>
    if picked.contains i then
      ((rx[i]?).getD []).flatMap fun j =>
        if picked.contains j then
          ((M[i]?).getD []).flatMap fun a => ((M[j]?).getD []).map fun b => ⟨i, j, a, b⟩
        else []
    else []

/-- The confidences and the limits. -/
structure LosLimits where
  conf : Dict (Nat × Nat) ℚ
  maxDist : Dict (String × String) ℚ
  minDist : ℚ
  maxEl : ℚ
  dist : Site → Site → ℚ
  el : Site → Site → ℚ

/-- The body of the loops, `los/helper.py:941-962`. -/
def addReq (P : LosLimits) (t : Topology) (q : LosReq) : Except Err Topology :=
  match P.conf.get? (q.i, q.j) with
  | none => .error .keyError
  | some c =>
    match mkLink (some q.tx) (some q.rx) none none .candidate true with
    | .error e => .error e
    | .ok l =>
      if P.minDist ≤ P.dist q.tx q.rx then
        match P.maxDist.get? (q.tx.device.sku, q.rx.device.sku) with
        | none => .error .keyError
        | some m =>
          if P.dist q.tx q.rx ≤ m ∧ |P.el q.tx q.rx| ≤ P.maxEl then
            match t.addLink { l with confidence := some c } with
            | (_, some e) => .error e
            | (t1, none) => .ok t1
          else .ok t
      else .ok t

/-- The links one after the other. -/
def addReqs (P : LosLimits) : Topology → List LosReq → Except Err Topology
  | t, [] => .ok t
  | t, q :: rest => match addReq P t q with
    | .error e => .error e
    | .ok t1 => addReqs P t1 rest

/-- `construct_topology_from_los_result`, `los/helper.py:812-866`. -/
def constructLos (P : LosLimits) (devs : List Device) (base : Topology) (items : List LosItem) (rx : List (List Nat))
    (picked : List Nat) : Except Err Topology :=
  addReqs P (addItems devs picked 0 base items).1 (losReqs picked rx (addItems devs picked 0 base items).2)

end Verif
