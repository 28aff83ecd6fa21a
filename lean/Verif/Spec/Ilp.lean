import Verif.Model.Ilp

/-! Vocabulary for the statements about the planning problem. -/

namespace Verif.Spec

/-- Total demand of the area served: each demand site counts `numSites` times, with
its demand divided by the oversubscription factor. -/
def totalDemand (P : Plan) : ℚ :=
  (P.t.demandSites.vals.map fun d => (d.numSites : ℚ) * (d.demand.getD 0 / P.p.oversubscription)).sum

/-- Total unmet demand. -/
def totalShortage (P : Plan) (x : Vars) : ℚ := (P.demands.map x.shortage).sum

/-- What a copy of a demand site asks for. -/
def asked (P : Plan) : Loc → ℚ
  | .demand id _ => ((P.t.demandSites.get? id).bind (·.demand)).getD 0 / P.p.oversubscription
  | _ => 0

/-- Arrivals at a location: sum of the flow over the links that end there. -/
def arriving (P : Plan) (f : Arc → ℚ) (l : Loc) : ℚ :=
  ((P.arcs.filter (fun e => e.2 = l)).map f).sum

/-- Departures from a location. -/
def leaving (P : Plan) (f : Arc → ℚ) (l : Loc) : ℚ :=
  ((P.arcs.filter (fun e => e.1 = l)).map f).sum

/-- A link of the planning graph that carries something. -/
def Carries (P : Plan) (f : Arc → ℚ) (a b : Loc) : Prop := (a, b) ∈ P.arcs ∧ 0 < f (a, b)

/-- `path` leads from a POP fed by the source to the location `l` over links
that all carry flow. -/
structure ServingPath (P : Plan) (f : Arc → ℚ) (path : List SiteId) (l : Loc) : Prop where
  start : ∃ p x, path.head? = some p ∧ P.t.sites.get? p = some x ∧ x.siteType = .pop ∧
    Carries P f .source (.site p)
  hops : path.IsChain (fun a b => Carries P f (.site a) (.site b))
  finish : ∃ q, path.getLast? = some q ∧ Carries P f (.site q) l

/-- The radio links that leave site `s` through sector `k`. -/
def sentBy (P : Plan) (s : SiteId) (k : SectorId) : List Link :=
  P.t.links.vals.filter fun l => l.tx = s ∧ l.isWireless = true ∧ l.sectors.map (·.1) = some k

/-- The radio links that arrive at site `s` through sector `k`. -/
def heardBy (P : Plan) (s : SiteId) (k : SectorId) : List Link :=
  P.t.links.vals.filter fun l => l.rx = s ∧ l.isWireless = true ∧ l.sectors.map (·.2) = some k

/-- The arc of a topology link. -/
def arcOf (l : Link) : Arc := (.site l.tx, .site l.rx)

/-- Site types ordered by capability: CN < DN < POP. -/
def rank : SiteType → Nat
  | .cn => 0
  | .dn => 1
  | .pop => 2

/-- Sites decided by the input: PROPOSED/EXISTING, an end of a PROPOSED/EXISTING
link, or (with `always_active_pops`) a POP that is not ruled out. -/
def Demanded (P : Plan) (s : SiteId) : Prop :=
  (∃ x, P.t.sites.get? s = some x ∧ x.status.active = true) ∨
  (∃ l ∈ P.t.links.vals, l.status.active = true ∧ (l.tx = s ∨ l.rx = s)) ∨
  (P.p.alwaysActivePops = true ∧
    ∃ x, P.t.sites.get? s = some x ∧ x.siteType = .pop ∧ x.status.inactive = false)

/-- Same longitude, latitude and altitude. -/
def SamePlace (P : Plan) (a b : SiteId) : Prop :=
  ∃ x y, P.t.sites.get? a = some x ∧ P.t.sites.get? b = some y ∧
    x.lon = y.lon ∧ x.lat = y.lat ∧ x.alt = y.alt

end Verif.Spec
