import Verif.Props.Status

/-! # What a planning run may do to a topology -/

namespace Verif
namespace Topology

/-- `n` is a POP standing where the DN `d` stands, with its device. -/
def Spec.PopOnDn (n d : Site) : Prop :=
  n.siteType = .pop ∧ d.siteType = .dn ∧ n.lat = d.lat ∧ n.lon = d.lon ∧ n.alt = d.alt ∧ n.device = d.device ∧
    n.building = d.building

/-- `t` extends `b`: every site, link and demand site of `b` is still there, with all attributes but the status, the
polarity and the breakdowns (sites), the status and the sectors (links) and the connected sites (demand); EXISTING and
UNAVAILABLE are neither left nor entered; what is new is POPs on DNs and links touching them, and this only if `grow`. -/
structure Extends (grow : Prop) (b t : Topology) : Prop where
  site : ∀ i s, b.sites.get? i = some s → ∃ s', t.sites.get? i = some s' ∧
    s' = { s with status := s'.status, polarity := s'.polarity, breakdowns := s'.breakdowns } ∧
    Spec.FixedKept s.status s'.status
  link : ∀ i l, b.links.get? i = some l → ∃ l', t.links.get? i = some l' ∧
    l' = { l with status := l'.status, sectors := l'.sectors } ∧
    Spec.FixedKept l.status l'.status
  demand : ∀ i, Option.Rel (fun d d' : DemandSite => d' = { d with connected := d'.connected })
    (b.demandSites.get? i) (t.demandSites.get? i)
  newSite : ∀ i n, t.sites.get? i = some n → b.sites.get? i = none →
    grow ∧ (∃ j d, b.sites.get? j = some d ∧ Spec.PopOnDn n d) ∧ n.status ≠ .existing ∧ n.status ≠ .unavailable
  newLink : ∀ i l, t.links.get? i = some l → b.links.get? i = none →
    (b.sites.get? l.tx = none ∨ b.sites.get? l.rx = none) ∧
      l.status ≠ .existing ∧ l.status ≠ .unavailable

end Topology
end Verif
