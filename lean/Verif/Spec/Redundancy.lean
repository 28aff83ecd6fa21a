import Verif.Model.Topology

/-! Vocabulary for the statements about redundancy. -/

namespace Verif.Spec

/-- With the sites in `F` and the links in `G` (in both directions) out of order, site `s` is still
joined to a POP of the network in use: POP, links and sites on the way are PROPOSED or
EXISTING. -/
inductive Survives (t : Topology) (F : List SiteId) (G : List (SiteId × SiteId)) : SiteId → Prop
  | pop {s : SiteId} {x : Site} : t.sites.get? s = some x → x.siteType = .pop →
      x.status = .proposed ∨ x.status = .existing → s ∉ F → Survives t F G s
  | hop {a b : SiteId} {l : Link} {y : Site} : Survives t F G a →
      t.links.get? ⟨a, b⟩ = some l → l.status = .proposed ∨ l.status = .existing →
      (a, b) ∉ G → (b, a) ∉ G →
      t.sites.get? b = some y → y.status = .proposed ∨ y.status = .existing → b ∉ F →
      Survives t F G b

/-- `s` is a POP of the topology. -/
def IsPop (t : Topology) (s : SiteId) : Prop := ∃ x, t.sites.get? s = some x ∧ x.siteType = .pop

instance (t : Topology) (s : SiteId) : Decidable (IsPop t s) :=
  decidable_of_iff (∃ x ∈ t.sites.get? s, x.siteType = .pop) Iff.rfl

end Verif.Spec
