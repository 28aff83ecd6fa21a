import Verif.Model.Hops
import Verif.Model.Extract
import Verif.Model.Demand

/-!
# POP proposal: `optimization/ilp_models/pop_proposal_optimization.py`
-/

namespace Verif
namespace Topology

/-- `dns_on_pops`, `pop_proposal_optimization.py:147-159`. -/
def dnsOnPops (t : Topology) : List SiteId :=
  (t.colocated.vals.filter fun ids => ids.any fun s => (t.sites.get? s).any (·.siteType == .pop)).flatten.filter
    fun s => (t.sites.get? s).any (·.siteType == .dn)

/-- DNs become POPs unless a POP is at the same place, `pop_proposal_optimization.py:161-172`. The site id, a hash of
the type among others, is not recomputed. -/
def dnsToPops (t : Topology) : Topology :=
  { t with sites := t.sites.map fun e =>
      (e.1, if e.2.siteType = .dn ∧ e.1 ∉ t.dnsOnPops then { e.2 with siteType := .pop } else e.2) }

/-- `links_to_delete`, `pop_proposal_optimization.py:174-178`. The receivers of links are sites of the topology (C01),
so the lookup does not raise. -/
def backhaulIds (t : Topology) : List LinkId :=
  (t.links.filter fun e => (t.sites.get? e.2.rx).map (·.siteType) != some .cn).map (·.1)

/-- `_compute_access_candidate_topology`, `pop_proposal_optimization.py:141-185`. -/
def accessTopology (t : Topology) : Option Out :=
  match t.dnsToPops.removeLinks t.dnsToPops.backhaulIds with
  | (t1, some e) => some (t1, some e)
  | (t1, none) => t1.markUnreachable none

/-- A POP that is not ruled out: `site.site_type == SiteType.POP and site.status_type not in inactive_status()`. -/
def usablePop (s : Site) : Bool := s.siteType == .pop && !s.status.inactive

/-- The loop of `propose_pops` over the sites of the input topology, `pop_proposal_optimization.py:261-272`; `t` is the
access topology. -/
def proposePops (t : Topology) : List (SiteId × Site) → Out
  | [] => (t, none)
  | e :: rest =>
    if usablePop e.2 then
      match t.setSiteStatus e.1 .proposed with
      | (t1, some err) => (t1, some err)
      | (t1, none) => proposePops t1 rest
    else proposePops t rest

/-- `num_input_pops` and `num_access_pops`, `pop_proposal_optimization.py:212-227`. -/
def usablePops (t : Topology) : Nat := (t.sites.filter fun e => usablePop e.2).length

end Topology

namespace Plan

/-- `POPProposalNetwork.__init__` and the first loop of `propose_pops`, `pop_proposal_optimization.py:188-209, 261-272`:
the planning problem that is solved, or the exception raised. The sets `proposed_sites` and `inactive_sites` are read
off the statuses; a POP whose status is set here was not in `inactive_sites`. -/
def popProposal (t : Topology) (p : OptParams) : Option (Except Err Plan) :=
  t.accessTopology.map fun o =>
    match o with
    | (_, some e) => .error e
    | (a, none) =>
      let P : Plan := ⟨a, { p with ignorePolarities := true, alwaysActivePops := false }⟩
      match P.setupErr with
      | some e => .error e
      | none =>
        match a.proposePops t.sites with
        | (_, some e) => .error e
        | (b, none) => .ok { P with t := b }

/-- `create_pop_constraint`, `pop_proposal_optimization.py:211-245`; `t` is the input topology. -/
def PopCount (P : Plan) (t : Topology) (extra : Nat) (x : Vars) : Prop :=
  let n := min (extra + t.usablePops) P.t.usablePops
  n ≠ 0 → ((P.t.sites.keys.filter fun s => P.isPop (.site s)).map x.site).sum = n

end Plan

namespace Topology

/-- The POP at the place of a DN, `pop_proposal_optimization.py:60-71`; `pid` gives the hash of its key attributes. -/
def popOn (pid : SiteId → SiteId) (s : Site) : Site :=
  { id := pid s.id, siteType := .pop, status := .candidate, lat := s.lat, lon := s.lon, alt := s.alt, device := s.device,
    building := s.building }

/-- The copy of a sector, `pop_proposal_optimization.py:76-83`. -/
def sectorOn (pop : SiteId) (k : Sector) : Sector :=
  { site := pop, node := k.node, pos := k.pos, azimuth := k.azimuth, channel := k.channel }

/-- The inner loop over the sectors, `pop_proposal_optimization.py:74-85`; with `duplicated_sectors`. -/
def dupSectors (t : Topology) (pop : SiteId) (D : Dict SectorId SectorId) : List Sector → Topology × Dict SectorId SectorId × Option Err
  | [] => (t, D, none)
  | k :: rest =>
    match t.addSector (sectorOn pop k) with
    | (t1, some e) => (t1, D, some e)
    | (t1, none) => dupSectors t1 pop (D.set k.id (sectorOn pop k).id) rest

/-- The loop over the sites, `pop_proposal_optimization.py:48-85`, with `duplicated_sites` as the list of the DNs;
`sectors` are the sectors before the loop. -/
def dupSites (pid : SiteId → SiteId) (chosen : SiteId → Bool) (sectors : List Sector) (t : Topology)
    (S : List SiteId) (D : Dict SectorId SectorId) : List (SiteId × Site) → Topology × List SiteId × Dict SectorId SectorId × Option Err
  | [] => (t, S, D, none)
  | e :: rest =>
    if chosen e.1 && e.2.siteType == .dn then
      match t.addSite (popOn pid e.2) with
      | (t1, some err) => (t1, S, D, some err)
      | (t1, none) =>
        match t1.dupSectors (pid e.1) D (sectors.filter fun k => k.site = e.1) with
        | (t2, D2, some err) => (t2, S, D2, some err)
        | (t2, D2, none) => dupSites pid chosen sectors t2 (S ++ [e.1]) D2 rest
    else dupSites pid chosen sectors t S D rest

/-- `Link(...)` with `link_budget` copied and `topology.add_link`, `pop_proposal_optimization.py:99-109, 121-131`; `m` is
the link whose `is_wireless` and `confidence_level` are used. The distance is that between the places of the sites. The
sectors of `l` are on the sites of `l`, as the constructor of `Link` checks. -/
def addCopy (t : Topology) (tx rx : SiteId) (secs : SectorId × SectorId) (l m : Link) : Out :=
  match t.sites.get? tx, t.sites.get? rx with
  | some a, some b =>
    match mkLink (some a) (some b) (some ⟨secs.1, a⟩) (some ⟨secs.2, b⟩) .candidate m.isWireless with
    | .error e => (t, some e)
    | .ok n => t.addLink { n with capacity := l.capacity, distance := l.distance, confidence := m.confidence }
  | _, _ => (t, some .keyError)

/-- The loop over the successors of a DN, `pop_proposal_optimization.py:89-109`; the last component is the variable
`tx_link`. -/
def dupOut (D : Dict SectorId SectorId) (dn pop : SiteId) (t : Topology) (last : Option Link) :
    List Site → Topology × Option Link × Option Err
  | [] => (t, last, none)
  | n :: rest =>
    if n.siteType = .pop then dupOut D dn pop t last rest
    else match t.getLinkBySiteIds dn n.id with
      | .error e => (t, last, some e)
      | .ok none => (t, last, some .attributeError)
      | .ok (some l) =>
        match l.sectors with
        | none => dupOut D dn pop t (some l) rest
        | some secs =>
          match D.get? secs.1 with
          | none => (t, some l, some .keyError)
          | some k =>
            match t.addCopy pop n.id (k, secs.2) l l with
            | (t1, some e) => (t1, some l, some e)
            | (t1, none) => dupOut D dn pop t1 (some l) rest

/-- The loop over the predecessors of a DN, `pop_proposal_optimization.py:111-131`: `is_wireless` and
`confidence_level` are those of `tx_link`, which the first loop (or an earlier DN) left. -/
def dupIn (D : Dict SectorId SectorId) (dn pop : SiteId) (last : Option Link) (t : Topology) : List Site → Out
  | [] => (t, none)
  | n :: rest =>
    if n.siteType = .pop then dupIn D dn pop last t rest
    else match t.getLinkBySiteIds n.id dn with
      | .error e => (t, some e)
      | .ok none => (t, some .attributeError)
      | .ok (some l) =>
        match l.sectors with
        | none => dupIn D dn pop last t rest
        | some secs =>
          match D.get? secs.2 with
          | none => (t, some .keyError)
          | some k =>
            match last with
            | none => (t, some .unboundLocal)
            | some m =>
              match t.addCopy n.id pop (secs.1, k) l m with
              | (t1, some e) => (t1, some e)
              | (t1, none) => dupIn D dn pop last t1 rest

/-- The loop over the duplicated sites, `pop_proposal_optimization.py:87-131`. -/
def dupLinks (pid : SiteId → SiteId) (D : Dict SectorId SectorId) (t : Topology) (last : Option Link) :
    List SiteId → Out
  | [] => (t, none)
  | dn :: rest =>
    match t.getSuccessorSites dn with
    | .error e => (t, some e)
    | .ok succ =>
      match dupOut D dn (pid dn) t last succ with
      | (t1, _, some e) => (t1, some e)
      | (t1, last1, none) =>
        match t1.getPredecessorSites dn with
        | .error e => (t1, some e)
        | .ok pred =>
          match dupIn D dn (pid dn) last1 t1 pred with
          | (t2, some e) => (t2, some e)
          | (t2, none) => dupLinks pid D t2 last1 rest

/-- `add_duplicate_pop_to_dn_site`, `pop_proposal_optimization.py:40-138`; `chosen` are the sites with decision 1. -/
def addPopsOnDns (pid : SiteId → SiteId) (chosen : SiteId → Bool) (t : Topology) : Out :=
  match dupSites pid chosen t.sectors.vals t [] [] t.sites with
  | (t1, _, _, some e) => (t1, some e)
  | (t1, S, D, none) =>
    match dupLinks pid D t1 none S with
    | (t2, some e) => (t2, some e)
    | (t2, none) => (t2.connectDemand (S.map fun i => (i, [pid i])), none)

end Topology
end Verif
