import Verif.Model.Routing
import Verif.Spec.Nx
import Mathlib.Order.WithBot
import Mathlib.Algebra.Order.Monoid.Unbundled.WithTop

/-!
# Routes of demand sites (specification for C117)
-/

namespace Verif
namespace Spec

/-- A link of the network in use leads from `a` to `b`. -/
def LinkInUse (t : Topology) (a b : SiteId) : Prop :=
  ∃ l x y, t.links.get? ⟨a, b⟩ = some l ∧ t.sites.get? a = some x ∧ t.sites.get? b = some y ∧
    InNetwork l.status ∧ InNetwork x.status ∧ InNetwork y.status

/-- The list of sites `q` leads from a POP in use along links in use to a site of demand
site `d` that is in use. -/
structure Route (t : Topology) (d : DemandId) (q : List SiteId) : Prop where
  start : ∃ s x, q.head? = some s ∧ t.sites.get? s = some x ∧ x.siteType = .pop ∧ InNetwork x.status
  hops : q.IsChain (LinkInUse t)
  last : ∃ s x dm, q.getLast? = some s ∧ t.sites.get? s = some x ∧ InNetwork x.status ∧
    t.demandSites.get? d = some dm ∧ s ∈ dm.connected

/-- The steps of a route. -/
def steps : List SiteId → List LinkId
  | a :: b :: r => ⟨a, b⟩ :: steps (b :: r)
  | _ => []

/-- The cost of a link of some MCS level: 1 from level 9 on, 3 for levels 4 to 8, 15 for
2 and 3, no limit for lower ones. -/
def LevelCost : ℤ → WithTop ℕ → Prop
  | m, c => (9 ≤ m → c = 1) ∧ (4 ≤ m → m ≤ 8 → c = 3) ∧ (2 ≤ m → m ≤ 3 → c = 15) ∧ (m < 2 → c = ⊤)

/-- The sum of the costs of the steps of a route. -/
def routeCost (c : LinkId → WithTop ℕ) (q : List SiteId) : WithTop ℕ := ((steps q).map c).sum

/-- The list of sites `q` leads from POP `P` in use along links in use to site `s`. -/
structure PopPath (t : Topology) (P s : SiteId) (q : List SiteId) : Prop where
  pop : ∃ x, t.sites.get? P = some x ∧ x.siteType = .pop ∧ InNetwork x.status
  head : q.head? = some P
  hops : q.IsChain (LinkInUse t)
  last : q.getLast? = some s

/-- No POP has a shorter path to `s` than `P`. -/
def NearestPop (t : Topology) (P s : SiteId) : Prop :=
  ∃ q, PopPath t P s q ∧ ∀ P' q', PopPath t P' s q' → q.length ≤ q'.length

/-- `q` has the fewest sites of all routes of `d`. -/
def ShortestRoute (t : Topology) (d : DemandId) (q : List SiteId) : Prop :=
  Route t d q ∧ ∀ q', Route t d q' → q.length ≤ q'.length

/-- `q` is a route of `d` such as is asked for. For DPA: the route starts at a POP from which a
shortest route of `d` starts, that POP is a nearest one for all sites on the route, the route
costs no more than some shortest route from there, and no more than any route of `d` along sites that
have that POP as the only nearest one. -/
def GoodRoute (t : Topology) (c : LinkId → WithTop ℕ) (d : DemandId) (q : List SiteId) : TopologyRouting → Prop
  | .shortestPath => ShortestRoute t d q
  | .mcsCostPath => Route t d q ∧ ∀ q', Route t d q' → routeCost c q ≤ routeCost c q'
  | .dpaPath => Route t d q ∧ ∃ P, q.head? = some P ∧ (∀ s ∈ q, NearestPop t P s) ∧
      (∃ q', ShortestRoute t d q' ∧ q'.head? = some P ∧ routeCost c q ≤ routeCost c q') ∧
      ∀ q', Route t d q' → (∀ s ∈ q', ∀ P', NearestPop t P' s → P' = P) → routeCost c q ≤ routeCost c q'

/-- The sum of the weights of the edges of a walk. -/
def walkCost {α : Type} (w : α × α → WithTop ℕ) : List α → WithTop ℕ
  | a :: b :: r => w (a, b) + walkCost w (b :: r)
  | _ => 0

/-- The attribute `link_cost` of an edge, 1 if absent. -/
def weight (G : Graph) (e : GEdge) : WithTop ℕ :=
  match G.edges.get? e with
  | some ⟨_, some (some n)⟩ => n
  | some ⟨_, some none⟩ => ⊤
  | _ => 1

/-- For each node a cheapest walk from `a`, if there is a walk. -/
structure CheapestPaths {α : Type} (E : α × α → Prop) (w : α × α → WithTop ℕ) (a : α)
    (paths : α → Option (List α)) : Prop where
  none_iff : ∀ v, paths v = none ↔ ∀ p, ¬ IsWalk E a v p
  walk : ∀ v p, paths v = some p → IsWalk E a v p
  cheap : ∀ v p q, paths v = some p → IsWalk E a v q → walkCost w p ≤ walkCost w q

/-- The searches do what networkx documents. -/
structure SearchesOk (N : Searches) : Prop where
  hops : ∀ G, ShortestPaths (fun e => e ∈ G.edges.keys) .super (N.hops G)
  cheap : ∀ G, CheapestPaths (fun e => e ∈ G.edges.keys) (weight G) .super (N.cheap G)

end Spec
end Verif
