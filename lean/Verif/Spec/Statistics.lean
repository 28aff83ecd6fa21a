import Verif.Model.Statistics
import Verif.Spec.Metrics
import Mathlib.Algebra.BigOperators.Group.Finset.Basic

/-!
# Vocabulary for the statistics of the report (C119, C120)
-/

namespace Verif
namespace Spec
open Finset

/-- `s` is the average, the greatest and the least of the values of `f` on `S`; all are 0 if `S` is empty. -/
structure Describes {ι : Type} (s : Stat) (S : Finset ι) (f : ι → ℚ) : Prop where
  none : S = ∅ → s = ⟨0, 0, 0⟩
  avg : s.avg * S.card = ∑ i ∈ S, f i
  max : S.Nonempty → (∃ i ∈ S, f i = s.max) ∧ ∀ i ∈ S, f i ≤ s.max
  min : S.Nonempty → (∃ i ∈ S, f i = s.min) ∧ ∀ i ∈ S, s.min ≤ f i

/-- A DN sector in use. -/
def DnSector (t : Topology) (a : SectorId) : Prop :=
  ∃ x, t.sectors.get? a = some x ∧ x.typ = .dn ∧ InNetwork x.status

/-- What the report needs of link `l` from sector `a` to sector `b`: backhaul links join two DN sectors in use, access
links start at one, and a wireless link joins two sectors on the same channel. -/
structure GoodEnds (t : Topology) (l : Link) (a b : SectorId) : Prop where
  backhaul : ∀ x, l.isWireless = true → t.sites.get? l.rx = some x → x.siteType ≠ .cn → DnSector t a ∧ DnSector t b
  access : ∀ x, l.isWireless = true → t.sites.get? l.rx = some x → x.siteType = .cn → DnSector t a
  channel : l.isWireless = true → ∃ x y, t.sectors.get? a = some x ∧ t.sectors.get? b = some y ∧ x.channel = y.channel

end Spec
end Verif
