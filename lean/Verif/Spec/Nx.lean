import Verif.Spec.Redundancy

/-! Vocabulary for the statements about the failure reports. -/

namespace Verif.Spec

/-- With the sites in `F` and the links in `G` (in both directions) out of order, demand site `d` still
gets service: one of its sites is joined to a POP of the network in use. -/
def Served (t : Topology) (F : List SiteId) (G : List (SiteId × SiteId)) (d : DemandId) : Prop :=
  ∃ dm, t.demandSites.get? d = some dm ∧ ∃ s ∈ dm.connected, Survives t F G s

/-- `n` demand sites have service now and lose it when `F` and `G` fail. -/
def LoseService (t : Topology) (F : List SiteId) (G : List (SiteId × SiteId)) (n : Nat) : Prop :=
  ∃ S : List DemandId, S.Nodup ∧ S.length = n ∧ ∀ d, d ∈ S ↔ Served t [] [] d ∧ ¬ Served t F G d

/-- A status of the network in use. -/
def InNetwork (s : StatusType) : Prop := s = .proposed ∨ s = .existing

instance (s : StatusType) : Decidable (InNetwork s) := inferInstanceAs (Decidable (_ ∨ _))

/-- `s` is a DN or a POP. -/
def NotCn (t : Topology) (s : SiteId) : Prop := ∃ x, t.sites.get? s = some x ∧ x.siteType ≠ .cn

/-- One of the sites of demand site `d` is a POP in use. -/
def AtPop (t : Topology) (d : DemandId) : Prop :=
  ∃ dm, t.demandSites.get? d = some dm ∧ ∃ s ∈ dm.connected, ∃ x, t.sites.get? s = some x ∧
    x.siteType = .pop ∧ InNetwork x.status

/-- No link is sent by a CN; `Link.__init__` refuses such a link (`link.py:90-94`). -/
def NoCnSender (t : Topology) : Prop :=
  ∀ a b l x, t.links.get? ⟨a, b⟩ = some l → t.sites.get? a = some x → x.siteType ≠ .cn

/-- No link leads from a site to itself. -/
def NoSelfLink (t : Topology) : Prop := ∀ a, t.links.get? ⟨a, a⟩ = none

/-- Some POP is in use. -/
def PopInUse (t : Topology) : Prop := ∃ s x, t.sites.get? s = some x ∧ x.siteType = .pop ∧ InNetwork x.status

/-- The list of nodes `p` leads along edges `E` from `a` to `b`. -/
def IsWalk {α : Type} (E : α × α → Prop) (a b : α) (p : List α) : Prop :=
  p.head? = some a ∧ p.getLast? = some b ∧ p.IsChain (fun x y => E (x, y))

/-- For each node a shortest walk from `a`, if there is a walk. -/
structure ShortestPaths {α : Type} (E : α × α → Prop) (a : α) (paths : α → Option (List α)) : Prop where
  none_iff : ∀ v, paths v = none ↔ ∀ p, ¬ IsWalk E a v p
  walk : ∀ v p, paths v = some p → IsWalk E a v p
  short : ∀ v p q, paths v = some p → IsWalk E a v q → p.length ≤ q.length

end Verif.Spec
