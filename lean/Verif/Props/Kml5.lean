import Verif.Props.Kml4

/-! # Files: examples, and what goes wrong -/

namespace Verif
namespace Kml
open Topology Spec

/-- A POP, a DN and a CN with two links in use and one candidate, and two demand sites. -/
def kmlDemo : List Op := [
  .addSite { id := "P", siteType := .pop, status := .existing, alt := some 5, device := { sku := "dev" } } false,
  .addSite { id := "A", siteType := .dn, status := .proposed, lat := 1, alt := some 6, device := { sku := "dev" } } false,
  .addSite { id := "C", siteType := .cn, status := .candidate, lat := 2, alt := some 7
             device := { sku := "cli", deviceType := .cn }, subscribers := 3 } false,
  .addLink { tx := "P", rx := "A", status := .proposed },
  .addLink { tx := "A", rx := "P", status := .proposed },
  .addLink { tx := "A", rx := "C", status := .candidate, confidence := some 1 },
  .addLink { tx := "P", rx := "C", status := .candidate, isWireless := false },
  .addDemandSite { id := "d1", connected := ["A", "C"], demand := some 1, lat := 3, lon := 4 },
  .addDemandSite { id := "d2", connected := ["P"], demand := some 3, lat := 4, lon := 5 }]

def kmlInfo : Info :=
  { title := "net", name := fun i => if i = "P" then "Smith & Co" else "site " ++ i, loc := fun _ => .streetLevel }

def kmlLoader : Loader :=
  { devices := [{ sku := "dev" }, { sku := "cli", deviceType := .cn }], fold := id
    hash := fun _ lat _ _ _ => if lat = 0 then "P" else if lat = 1 then "A" else "C", near := fun _ _ => .ok [] }

/-- C137: the file is written; a site with a special character in its name is shown. -/
example : ((write (run {} kmlDemo) kmlInfo).toOption.map fun d => d.tops.map fun f => (f.name, f.vis)) =
    some [("PROPOSED", 1), ("EXISTING", 0), ("CANDIDATE", 0), ("Demand", 0)] := by
  decide +kernel

example : ((write (run {} kmlDemo) kmlInfo).toOption.map fun d => d.tops.map fun f => f.subs.map (·.name)) =
    some [["DN Sites", "WIRELESS_BACKHAUL Links"], ["POP Sites"],
      ["CN Sites", "WIRELESS_ACCESS Links", "ETHERNET Links"], ["Demand Sites", "Demand Connections"]] := by
  decide +kernel

example : ((write (run {} kmlDemo) kmlInfo).toOption.map fun d => (d.marksAt "EXISTING" "POP Sites").map (·.name)) =
    some ["Smith &amp; Co"] := by
  decide +kernel

/-- C137: the shades of the demand. -/
example : ((write (run {} kmlDemo) kmlInfo).toOption.map fun d =>
      ((d.marksAt "Demand" "Demand Sites").map (·.style), (d.marksAt "Demand" "Demand Connections").map (·.name))) =
    some (["demand_site_1", "demand_site_2"], ["link_A_d1", "link_P_d2"]) := by
  decide +kernel

/-- C138: the conditions of `C138_styles_partial` hold of the example, and the styles are there. -/
example : ((write (run {} kmlDemo) kmlInfo).toOption.map fun d => decide (∀ m ∈ d.marks, m.style ∈ d.styles)) =
    some true ∧
    (∀ s ∈ (run {} kmlDemo).sites.vals, s.siteType = .pop → s.status ≠ .unreachable) ∧
    (∀ l ∈ (run {} kmlDemo).links.vals, kmlInfo.util ⟨l.tx, l.rx⟩ ≤ 80 ∧ kmlInfo.util ⟨l.rx, l.tx⟩ ≤ 80) ∧
    ∀ x ∈ (run {} kmlDemo).demandSites.vals, 0 ≤ x.demand.getD 0 := by
  decide +kernel

/-- **C138 violated.** A placemark of an unreachable POP, of a busy link that is not in use, or of a negative demand
uses a style that is not in the file. -/
theorem C138_styles_violation :
    (∃ d, write (run {} [.addSite { id := "P", siteType := .pop, status := .unreachable } false]) kmlInfo = .ok d ∧
      ∃ m ∈ d.marks, m.style = "POP_UNREACHABLE" ∧ m.style ∉ d.styles) ∧
    (∃ d, write (run {} kmlDemo) { kmlInfo with util := fun _ => 90 } = .ok d ∧
      ∃ m ∈ d.marks, m.style = "backhaul_link_CANDIDATE_high_util" ∧ m.style ∉ d.styles) ∧
    ∃ d, write (run {} [.addDemandSite { id := "a", demand := some 1 },
        .addDemandSite { id := "b", demand := some (-1) }]) kmlInfo = .ok d ∧
      ∃ m ∈ d.marks, m.style = "demand_site_-3" ∧ m.style ∉ d.styles := by
  have key : ∀ {x : Except Err Doc} {P : Doc → Prop} [DecidablePred P],
      (match x with | .ok d => decide (P d) | .error _ => false) = true → ∃ d, x = .ok d ∧ P d := by
    intro x P _ h
    cases x with
    | error e => cases h
    | ok d => exact ⟨d, rfl, of_decide_eq_true h⟩
  refine ⟨key ?_, key ?_, key ?_⟩ <;> decide +kernel

/-- C138: the conditions of `C138_wellformed_partial` hold of the example, and the file is parsed. -/
example : ((write (run {} kmlDemo) kmlInfo).toOption.map fun d => d.layers.map (·.length)) = some (some 12) ∧
    (∀ s ∈ (run {} kmlDemo).sites.vals, ∀ c ∈ s.id.toList, c ≠ '&' ∧ c ≠ '<') ∧
    ∀ x ∈ (run {} kmlDemo).demandSites.vals, ∀ c ∈ x.id.toList, c ≠ '&' ∧ c ≠ '<' := by
  decide +kernel

/-- **C138 violated.** The name of the topology is written without escaping: a topology named `A & B` gives a file
that is no XML file and cannot be loaded. -/
theorem C138_wellformed_violation : ∃ d, write (run {} kmlDemo) { kmlInfo with title := "A & B" } = .ok d ∧
    d.layers = none ∧ ∀ L ogr, load L ogr d = .error .data := by
  have h : (match write (run {} kmlDemo) { kmlInfo with title := "A & B" } with
      | .ok d => d.layers.isNone | .error _ => false) = true := by decide +kernel
  cases hw : write (run {} kmlDemo) { kmlInfo with title := "A & B" } with
  | error e => rw [hw] at h; cases h
  | ok d =>
    rw [hw] at h
    have hl : d.layers = none := Option.isNone_iff_eq_none.1 h
    refine ⟨d, rfl, hl, fun L ogr => ?_⟩
    unfold load readDoc
    rw [hl]

/-- C139: the example can be reloaded. -/
theorem kmlDemo_reloadable : Reloadable (run {} kmlDemo) kmlInfo kmlLoader where
  named := by decide +kernel
  distinct := by decide +kernel
  known := by decide +kernel
  ground := by decide +kernel
  typ := by decide +kernel
  hash := by decide +kernel
  subs := by decide +kernel
  compat := by
    have : ∀ l ∈ (run {} kmlDemo).links.vals, l.isWireless = true →
        ∀ a ∈ (run {} kmlDemo).sites.get? l.tx, ∀ b ∈ (run {} kmlDemo).sites.get? l.rx,
          linkCompat a.status b.status l.status = true ∧ linkCompat b.status a.status l.status = true := by
      decide +kernel
    exact fun l hl hw a b ha hb => this l hl hw a ha b hb
  back := by decide +kernel
  sitePlain := by unfold Plain; decide +kernel
  demandPlain := by unfold Plain; decide +kernel
  title := by unfold Plain; decide +kernel

/-- C139: the example is written and read; the confidence level and the wired link are lost. -/
example : ∃ d S t' D, write (run {} kmlDemo) kmlInfo = .ok d ∧ load kmlLoader launder d = .ok (S, t', D) ∧
    t'.links.get? ⟨"A", "C"⟩ = some { tx := "A", rx := "C", status := .candidate } ∧
    t'.links.get? ⟨"P", "C"⟩ = none ∧ D = [(3, 4), (4, 5)] := by
  have hw : (write (run {} kmlDemo) kmlInfo).toOption.isSome = true := by decide +kernel
  cases h : write (run {} kmlDemo) kmlInfo with
  | error e => rw [h] at hw; cases hw
  | ok d =>
    obtain ⟨S, t', h1, -, h3, -⟩ := C139_reload_partial kmlDemo kmlInfo kmlLoader launder d h kmlDemo_reloadable
      fun _ _ => rfl
    refine ⟨d, S, t', _, rfl, h1, (h3 _ _).2 ?_, ?_, by decide +kernel⟩
    · exact ⟨{ tx := "A", rx := "C", status := .candidate, confidence := some 1 },
        { id := "A", siteType := .dn, status := .proposed, lat := 1, alt := some 6, device := { sku := "dev" } },
        by decide +kernel, rfl, .inl rfl, by decide +kernel, by decide, rfl⟩
    · cases hl : t'.links.get? ⟨"P", "C"⟩ with
      | none => rfl
      | some l' =>
        obtain ⟨l, a, g, w, hk, -⟩ := (h3 _ _).1 hl
        rcases hk with hk | hk
        · rw [← hk, show (run {} kmlDemo).links.get? ⟨"P", "C"⟩ = some { tx := "P", rx := "C", status := .candidate
                                                                         isWireless := false } by decide +kernel] at g
          cases g
          cases w
        · rw [LinkId.mk.injEq] at hk
          rw [← hk.1, ← hk.2, show (run {} kmlDemo).links.get? ⟨"C", "P"⟩ = none by decide +kernel] at g
          cases g

/-- **C139 violated.** A site on a rooftop is written, but as the number of its building is not, the file cannot be
loaded. -/
theorem C139_rooftop_violation :
    ∃ d, write (run {} kmlDemo) { kmlInfo with loc := fun i => if i = "A" then .rooftop else .streetLevel } = .ok d ∧
      load kmlLoader launder d = .error .topology := by
  have h : (match write (run {} kmlDemo)
        { kmlInfo with loc := fun i => if i = "A" then .rooftop else .streetLevel } with
      | .ok d => (match load kmlLoader launder d with | .error .topology => true | _ => false)
      | .error _ => false) = true := by decide +kernel
  split at h
  · rename_i d hd
    refine ⟨d, hd, ?_⟩
    split at h
    · assumption
    · cases h
  · cases h

/-- C140: a file with a link that does not name its sites, though it is drawn between them. -/
example : ∃ r, readDoc launder
      { title := "t", styles := []
        tops := [{ id := "", name := "CANDIDATE"
                   subs := [{ id := "", name := "WIRELESS_BACKHAUL Links"
                              marks := [{ name := "l", style := "", mode := ""
                                          coords := [(0, 0, none), (1, 0, none)] }] }] }] } = .ok r ∧
    ∃ k ∈ r.links, k.typ ≠ .ethernet ∧ (k.tx = "" ∨ k.rx = "") := by
  have key : ∀ {x : Except Err Read} {P : Read → Prop} [DecidablePred P],
      (match x with | .ok d => decide (P d) | .error _ => false) = true → ∃ d, x = .ok d ∧ P d := by
    intro x P _ h
    cases x with
    | error e => cases h
    | ok d => exact ⟨d, rfl, of_decide_eq_true h⟩
  refine key ?_
  decide +kernel

end Kml
end Verif
