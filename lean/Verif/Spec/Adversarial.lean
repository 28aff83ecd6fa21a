import Verif.Spec.Nx

/-! Vocabulary for the statements about adversarial links. -/

namespace Verif.Spec

/-- A status with which a site or link may be part of a plan. -/
def Plannable (s : StatusType) : Prop := s = .proposed ∨ s = .existing ∨ s = .candidate

/-- CN, DN, POP in this order. -/
def grade : SiteType → Nat
  | .cn => 0
  | .dn => 1
  | .pop => 2

/-- Same coordinates. -/
def Beside (x y : Site) : Prop := x.lon = y.lon ∧ x.lat = y.lat ∧ x.alt = y.alt

/-- Sites are in use at the place of `s`, and `s` cannot be selected beside them: it is neither itself a
site in use of the highest type there, nor an upgrade of CNs to a DN or POP. -/
def Taken (t : Topology) (s : SiteId) : Prop :=
  ∃ x a y, t.sites.get? s = some x ∧ t.sites.get? a = some y ∧ Beside x y ∧ InNetwork y.status ∧
    (∀ b z, t.sites.get? b = some z → Beside x z → InNetwork z.status →
      grade z.siteType ≤ grade y.siteType) ∧
    ¬ (InNetwork x.status ∧ x.siteType = y.siteType) ∧ ¬ (y.siteType = .cn ∧ x.siteType ≠ .cn)

/-- Site `s` can be joined to a POP without the links in `G` (in both directions), over sites that may be
part of a plan and links with capacity. -/
inductive Joinable (t : Topology) (G : List (SiteId × SiteId)) : SiteId → Prop
  | pop {s : SiteId} {x : Site} : t.sites.get? s = some x → x.siteType = .pop → Plannable x.status →
      ¬ Taken t s → Joinable t G s
  | hop {a b : SiteId} {l : Link} {y : Site} : Joinable t G a →
      t.links.get? ⟨a, b⟩ = some l → Plannable l.status → 0 < l.capacity → (a, b) ∉ G → (b, a) ∉ G →
      t.sites.get? b = some y → Plannable y.status → ¬ Taken t b → Joinable t G b

/-- Demand site `d` can be served without the links in `G`. -/
def Servable (t : Topology) (G : List (SiteId × SiteId)) (d : DemandId) : Prop :=
  ∃ dm, t.demandSites.get? d = some dm ∧ ∃ s ∈ dm.connected, Joinable t G s

/-- Some demand site with service loses it when link `(a, b)` fails. -/
def Disruptive (t : Topology) (p : SiteId × SiteId) : Prop :=
  ∃ d, Served t [] [] d ∧ ¬ Served t [] [p] d

end Verif.Spec
