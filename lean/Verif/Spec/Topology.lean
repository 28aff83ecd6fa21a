import Verif.Model.Topology

/-! # What a consistent topology is (specification for C01-C05) -/

namespace Verif.Spec

/-- No dangling references, and every object filed under its own id. -/
structure Consistent (t : Topology) : Prop where
  /-- every site is filed under its own id -/
  site_id : ∀ id s, t.sites.get? id = some s → s.id = id
  /-- every demand site is filed under its own id -/
  demand_id : ∀ id d, t.demandSites.get? id = some d → d.id = id
  /-- every sector is filed under its own id and is mounted on a site that is present -/
  sector_id : ∀ id s, t.sectors.get? id = some s → s.id = id ∧ ∃ x, t.sites.get? s.site = some x
  /-- every link is filed under its own id and joins two sites that are present -/
  link_id : ∀ id l, t.links.get? id = some l →
    id = ⟨l.tx, l.rx⟩ ∧ (∃ x, t.sites.get? l.tx = some x) ∧ (∃ y, t.sites.get? l.rx = some y)
  /-- ids are unique -/
  unique : t.sites.keys.Nodup ∧ t.demandSites.keys.Nodup ∧ t.sectors.keys.Nodup ∧
    t.links.keys.Nodup

/-- `r` lists, each once, exactly the present sites `x` for which `P x.id`. -/
def ListsSites (t : Topology) (r : List Site) (P : SiteId → Prop) : Prop :=
  r.Nodup ∧ ∀ x, x ∈ r ↔ t.sites.get? x.id = some x ∧ P x.id

/-- There is a link `a -> b` in the topology. -/
def HasLink (t : Topology) (a b : SiteId) : Prop := ∃ l, t.links.get? ⟨a, b⟩ = some l

/-- There is a wireless link `a -> b` in the topology. -/
def HasWirelessLink (t : Topology) (a b : SiteId) : Prop :=
  ∃ l, t.links.get? ⟨a, b⟩ = some l ∧ l.isWireless = true

end Verif.Spec
