import Verif.Model.Pipeline
import Verif.Lemmas.IlpDemo
import Verif.Props.Apply2

/-! # A planning run on the demo network -/

namespace Verif
open Topology

/-- The solver finds the demo plan for a coverage up to 2/3, and keeps it in the interference phase. -/
def runDemoOut : Outside where
  pops _ := ⟨none, false⟩
  pid s := if s = "D" then "PD" else "PX"
  cost P := if P.p.coverage ≤ 2/3 then ⟨some ⟨planDemoVars, planDemoVars.flow, none⟩, false⟩ else ⟨none, false⟩
  edgeCost _ _ := some 1
  coverage _ _ := ⟨none, false⟩
  maxFlow _ _ _ := 0
  pairs _ := []
  redundancy _ _ _ := ⟨none, false⟩
  interf _ := .ok {}
  interference _ _ := ⟨some ⟨⟨planDemoVars, fun _ => 1, fun _ _ => 1, fun _ _ _ => 1, fun _ _ _ => 1⟩, planDemoVars.flow, none⟩, false⟩
  geo _ := ⟨fun _ => 360, fun _ => 0⟩
  best _ _ := []

def runDemoParams : RunParams := { planDemoParams with }

end Verif
