import Verif.Lemmas.IlpCheck
import Verif.Model.History

/-! # A small network used in the examples of the planning properties -/

namespace Verif
open Topology

/-- An EXISTING POP `P`, a DN `D`, a CN `E` at the same place as `D`, and a CN `C`
with a demand `q`. -/
def planDemo : List Op := [
  .addSite { id := "P", siteType := .pop, status := .existing, device := { nodeCapex := 100 } } false,
  .addSite { id := "D", siteType := .dn, status := .candidate, lat := 1, device := { nodeCapex := 50 } } false,
  .addSite { id := "E", siteType := .cn, status := .proposed, lat := 1, device := { nodeCapex := 5 } } false,
  .addSite { id := "C", siteType := .cn, status := .candidate, lat := 2, device := { nodeCapex := 5 } } false,
  .addSector { site := "P", node := 0, pos := 0 },
  .addSector { site := "D", node := 0, pos := 0 },
  .addSector { site := "D", node := 0, pos := 1 },
  .addSector { site := "C", node := 0, pos := 0, typ := .cn },
  .addLink { tx := "P", rx := "D", capacity := 4,
             sectors := some (⟨"P", 0, 0, .dn⟩, ⟨"D", 0, 0, .dn⟩) },
  .addLink { tx := "D", rx := "P", capacity := 4,
             sectors := some (⟨"D", 0, 0, .dn⟩, ⟨"P", 0, 0, .dn⟩) },
  .addLink { tx := "D", rx := "C", capacity := 2,
             sectors := some (⟨"D", 0, 1, .dn⟩, ⟨"C", 0, 0, .cn⟩) },
  .addDemandSite { id := "q", connected := ["C"], demand := some 3 }]

def planDemoParams : OptParams where
  popCapacity := 10
  oversubscription := 2
  costs := ⟨7, 20, 3⟩
  budget := 85
  coverage := 2/3

/-- One Gbps of the 1.5 demanded (after oversubscription) is delivered. -/
def planDemoVars : Vars where
  site s := if s = "E" then 0 else 1
  sector _ _ := 1
  flow e := if e = (.site "D", .site "P") then 0 else 1
  tdm e _ := if e = (.site "P", .site "D") then 1/4 else
    if e = (.site "D", .site "C") then 1/2 else 0
  odd s := if s = "P" then 1 else 0
  shortage _ := 1/2

theorem planDemo_ok : (Plan.mk (run {} planDemo) planDemoParams).setupErr = none := by
  decide +kernel

theorem planDemo_feasible :
    (Plan.mk (run {} planDemo) planDemoParams).SiteFeasible (fun _ => false) planDemoVars :=
  Plan.Check.sound (by decide +kernel)

end Verif
