import Verif.Model.Tables
import Verif.Spec.Metrics
import Verif.Spec.Deploy
import Verif.Spec.Hops

/-!
# Vocabulary for the tables of the report (C133-C135)
-/

namespace Verif
namespace Spec

/-- A link in use. -/
def LinkUsed (t : Topology) (l : Link) : Prop := t.links.get? ⟨l.tx, l.rx⟩ = some l ∧ InNetwork l.status

/-- A sector in use at site `s`. -/
def UsedSector (t : Topology) (s : SiteId) (x : Sector) : Prop :=
  t.sectors.get? ⟨x.site, x.node, x.pos, x.typ⟩ = some x ∧ x.site = s ∧ InNetwork x.status

/-- Sites and demand sites have different ids. -/
def Apart (t : Topology) : Prop := ∀ s x, t.sites.get? s = some x → t.demandSites.get? s = none

/-- The sectors of link `l` are sectors of the network. -/
def KnownEnds (t : Topology) (l : Link) : Prop :=
  ∃ a b x y, l.sectors = some (a, b) ∧ t.sectors.get? a = some x ∧ t.sectors.get? b = some y

/-- The links from `i` to `j` and to `k` in use leave different sectors of one channel at a small angle. -/
def DiffSectorPair (t : Topology) (lim : Topology.AngleLimits) (angle : SiteId → SiteId → SiteId → ℚ × ℚ)
    (i j k : SiteId) : Prop :=
  j ≠ k ∧ ∃ l1 l2, LinkInScope t true i j l1 ∧ LinkInScope t true i k l2 ∧ SectorsClash t true l1 l2 ∧
    (angle i j k).1 ≤ lim.diffSector

/-- The links from `i` to `j` and to `k` in use leave different sectors of one channel at a medium angle, and one is much
longer than the other. -/
def NearFarPair (t : Topology) (lim : Topology.AngleLimits) (angle : SiteId → SiteId → SiteId → ℚ × ℚ)
    (i j k : SiteId) : Prop :=
  j ≠ k ∧ ∃ l1 l2, LinkInScope t true i j l1 ∧ LinkInScope t true i k l2 ∧ SectorsClash t true l1 l2 ∧
    lim.diffSector < (angle i j k).1 ∧ (angle i j k).1 ≤ lim.nearFar ∧ lim.ratio ≤ (angle i j k).2

end Spec
end Verif
