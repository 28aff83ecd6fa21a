import Verif.Props.Adversarial

/-! # C38 on concrete networks -/

namespace Verif
open Spec Topology

/-- A radio link in both directions with the given status and capacity. -/
def radioPairOf (s : StatusType) (c : ℚ) (a b : SiteId) : List Op := [
  .addLink { tx := a, rx := b, capacity := c, status := s,
             sectors := some (⟨a, 0, 0, .dn⟩, ⟨b, 0, 0, .dn⟩) },
  .addLink { tx := b, rx := a, capacity := c, status := s,
             sectors := some (⟨b, 0, 0, .dn⟩, ⟨a, 0, 0, .dn⟩) }]

/-- POP `P`, DNs `A` and `Z` in use behind it with capacities `c1` and `c2`, a candidate DN `B` between `P`
and `Z`, a further DN `Y` in use behind `Z`. -/
def detour (c1 c2 : ℚ) : List Op := [
  .addSite { id := "P", siteType := .pop, status := .existing } false,
  .addSite { id := "A", siteType := .dn, status := .proposed, lat := 1 } false,
  .addSite { id := "B", siteType := .dn, status := .candidate, lat := 2 } false,
  .addSite { id := "Z", siteType := .dn, status := .proposed, lat := 3 } false,
  .addSite { id := "Y", siteType := .dn, status := .proposed, lat := 4 } false,
  .addSector { site := "P", node := 0, pos := 0, status := .existing },
  .addSector { site := "A", node := 0, pos := 0, status := .proposed },
  .addSector { site := "B", node := 0, pos := 0, status := .candidate },
  .addSector { site := "Z", node := 0, pos := 0, status := .proposed },
  .addSector { site := "Y", node := 0, pos := 0, status := .proposed },
  .addDemandSite { id := "a", connected := ["A"], demand := some 1 },
  .addDemandSite { id := "z", connected := ["Z"], demand := some 1 },
  .addDemandSite { id := "y", connected := ["Y"], demand := some 1 }] ++
  radioPairOf .proposed c1 "P" "A" ++ radioPairOf .proposed c2 "A" "Z" ++ radioPairOf .proposed 5 "Z" "Y" ++
  radioPairOf .candidate 5 "P" "B" ++ radioPairOf .candidate 5 "B" "Z"

/-- The hypotheses of `C38_adversarial_links_partial` are met by the detour. -/
theorem detour_hyps : (run {} (detour 5 5)).validateStatus = none ∧ NoCnSender (run {} (detour 5 5)) ∧
    NoSelfLink (run {} (detour 5 5)) ∧ PopInUse (run {} (detour 5 5)) ∧
    (∀ a b l, (run {} (detour 5 5)).links.get? ⟨a, b⟩ = some l → InNetwork l.status →
      NotCn (run {} (detour 5 5)) b → 0 < l.capacity) ∧
    (∀ s x, (run {} (detour 5 5)).sites.get? s = some x → x.siteType ≠ .cn → InNetwork x.status →
      ¬ Taken (run {} (detour 5 5)) s) := by
  have inv := Inv.empty.run (detour 5 5)
  refine ⟨by decide +kernel, noCnSender_of (by decide +kernel), noLoop_of (by decide +kernel),
    popInUse_of inv (by decide +kernel), ?_, ?_⟩
  · intro a b l hl _ _
    have : ∀ kl ∈ (run {} (detour 5 5)).links, 0 < kl.2.capacity := by decide +kernel
    exact this _ (Dict.mem_of_get? _ hl)
  · intro s x hx _ _ h
    rw [← colocatedToRemove_iff inv.nd_sites] at h
    have : (run {} (detour 5 5)).colocatedToRemove = [] := by decide +kernel
    rw [this] at h
    cases h

/-- On the detour, the link `P`–`A` disrupts three demand sites and can be avoided; `Z`–`A` can then not be
avoided as well; `Z`–`Y` never. -/
example : (run {} (detour 5 5)).adversarialLinks (fun _ => none) 1 =
    .ok [(.site "P", .site "A"), (.site "A", .site "P")] := by decide +kernel

example : (run {} (detour 5 5)).adversarialLinks (fun _ => none) (1 / 7) =
    .ok [(.site "P", .site "A"), (.site "A", .site "P")] := by decide +kernel

/-- C38 fails for a link in use without capacity: it is not in the candidate graph, and removing it there
raises an exception that ends the phase. -/
theorem C38_no_capacity_violation :
    (run {} (detour 0 5)).validateStatus = none ∧ NoCnSender (run {} (detour 0 5)) ∧
      NoSelfLink (run {} (detour 0 5)) ∧ PopInUse (run {} (detour 0 5)) ∧
      (run {} (detour 0 5)).adversarialLinks (fun _ => some 1) 1 = .error .planner :=
  ⟨by decide +kernel, noCnSender_of (by decide +kernel), noLoop_of (by decide +kernel),
    popInUse_of (Inv.empty.run (detour 0 5)) (by decide +kernel), by decide +kernel⟩

/-- An EXISTING DN `D` at the place of an EXISTING POP `P`, and a DN `A` behind it. -/
def twinDemo : List Op := [
  .addSite { id := "P", siteType := .pop, status := .existing } false,
  .addSite { id := "D", siteType := .dn, status := .existing } false,
  .addSite { id := "A", siteType := .dn, status := .proposed, lat := 1 } false,
  .addSector { site := "P", node := 0, pos := 0, status := .existing },
  .addSector { site := "D", node := 0, pos := 0, status := .existing },
  .addSector { site := "A", node := 0, pos := 0, status := .proposed },
  .addDemandSite { id := "a", connected := ["A"], demand := some 1 }] ++
  radioPairOf .existing 5 "P" "D" ++
  radioPairOf .proposed 5 "D" "A"

/-- C38 fails for an EXISTING DN at the place of an EXISTING POP: the DN is taken out of the candidate graph
with its links, and removing a link of it raises. -/
theorem C38_twin_violation :
    (run {} twinDemo).validateStatus = none ∧ NoCnSender (run {} twinDemo) ∧
      NoSelfLink (run {} twinDemo) ∧ PopInUse (run {} twinDemo) ∧
      (run {} twinDemo).adversarialLinks (fun _ => some 1) 1 = .error .planner :=
  ⟨by decide +kernel, noCnSender_of (by decide +kernel), noLoop_of (by decide +kernel),
    popInUse_of (Inv.empty.run twinDemo) (by decide +kernel), by decide +kernel⟩

end Verif
