import Verif.Model.Topology

/-! # Agreement of statuses around a link (specification for C76) -/

namespace Verif.Spec

/-- Statuses of the two end sites of a link satisfy `P`. -/
def EndSites (t : Topology) (l : Link) (P : StatusType → Prop) : Prop :=
  ∃ x y, t.sites.get? l.tx = some x ∧ t.sites.get? l.rx = some y ∧ P x.status ∧ P y.status

/-- The link has two sectors and their statuses satisfy `P`. -/
def EndSectors (t : Topology) (l : Link) (P : StatusType → Prop) : Prop :=
  ∃ a b x y, l.sectors = some (a, b) ∧ t.sectors.get? a = some x ∧ t.sectors.get? b = some y ∧
    P x.status ∧ P y.status

/-- What the statuses around one link should be. -/
structure StatusesAgree (t : Topology) (l : Link) : Prop where
  existing : l.status = .existing → EndSites t l (· = .existing) ∧ EndSectors t l (· = .existing)
  proposed : l.status = .proposed → EndSites t l (fun s => s = .proposed ∨ s = .existing) ∧
    EndSectors t l (fun s => s = .proposed ∨ s = .existing)
  candidate : l.status = .candidate →
    EndSites t l (fun s => s ≠ .unavailable ∧ s ≠ .unreachable) ∧
    (l.sectors = none ∨ EndSectors t l (fun s => s ≠ .unavailable ∧ s ≠ .unreachable))

end Verif.Spec
