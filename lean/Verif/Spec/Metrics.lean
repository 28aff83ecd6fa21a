import Verif.Model.Metrics
import Verif.Spec.Nx
import Mathlib.Data.Sym.Sym2
import Mathlib.Data.Finset.Card

/-!
# Vocabulary for the numbers of the report (C118, C119)
-/

namespace Verif
namespace Spec

/-- `u` percent of the capacity of `l` is in use with these flows; a link without capacity is not used. -/
def Share (flow : LinkId → ℚ) (l : Link) (u : ℚ) : Prop :=
  (0 < l.capacity → u * l.capacity = 100 * flow ⟨l.tx, l.rx⟩) ∧ (l.capacity ≤ 0 → u = 0)

/-- Link `l` from `a` to `b` is in use. -/
def UsedLink (t : Topology) (a b : SiteId) (l : Link) : Prop :=
  t.links.get? ⟨a, b⟩ = some l ∧ InNetwork l.status

/-- The pairs of sites with a link in use between them, in one or both directions. -/
def UsedPairs (t : Topology) (P : Finset (Sym2 SiteId)) : Prop :=
  ∀ p, p ∈ P ↔ ∃ a b l, p = s(a, b) ∧ UsedLink t a b l

end Spec
end Verif
