import Verif.Model.Topology

/-! # Hop paths (specification for C08-C10) -/

namespace Verif.Spec

/-- `HopPath t f s n`: a directed path of `n` links leads from a POP to `s`; the
POP, every link and every further site on it has a status accepted by `f`. -/
inductive HopPath (t : Topology) (f : StatusType → Bool) : SiteId → Nat → Prop
  | pop {s : SiteId} {x : Site} : t.sites.get? s = some x → x.siteType = .pop →
      f x.status = true → HopPath t f s 0
  | hop {a b : SiteId} {n : Nat} {l : Link} {y : Site} : HopPath t f a n →
      t.links.get? ⟨a, b⟩ = some l → f l.status = true →
      t.sites.get? b = some y → f y.status = true → HopPath t f b (n + 1)

end Verif.Spec
