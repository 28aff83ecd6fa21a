import Verif.Model.Pipeline
import Verif.Lemmas.IlpDemo
import Verif.Lemmas.InterfCheck

/-! # A planning run that prefers a detour -/

namespace Verif
open Topology

/-- The demo network with a weak direct link from the POP to the CN. -/
def detourDemo : List Op := planDemo ++ [
  .addSector { site := "P", node := 1, pos := 0 },
  .addLink { tx := "P", rx := "C", capacity := 1/4,
             sectors := some (⟨"P", 1, 0, .dn⟩, ⟨"C", 0, 0, .cn⟩) }]

def detourCost : Vars :=
  { planDemoVars with flow := fun e => if e = (.site "D", .site "P") ∨ e = (.site "P", .site "C") then 0 else 1 }

/-- The direct link is not chosen. -/
def detourInterf : IVars :=
  { detourCost with
    site := fun s => if s = "E" then 0 else 1
    sector := fun k _ => if k = ⟨"P", 1, 0, .dn⟩ then 0 else 1
    active := fun e => if e = (.site "P", .site "C") then 0 else 1
    deploy := fun e _ => if e = (.site "P", .site "C") then 0 else 1
    cls := fun e _ i => if e = (.site "P", .site "C") then (if i = 2 then 1 else 0) else if i = 1 then 1 else 0
    pol := fun _ _ _ => 0 }

def detourIn : Interf where
  channels := 1
  dnLimit := 2
  totalLimit := 15
  rsl := fun _ => 1
  rslInterf := fun _ => 1/4
  noise := fun _ => 1/8
  mcs := fun _ => [(1, 1/2), (1/4, 2)]

instance (P : Plan) (x : Vars) : Decidable (P.Coverage none x) := by unfold Plan.Coverage; infer_instance

/-- Answers that satisfy the constraints. -/
def detourOut : Outside where
  pops _ := ⟨none, false⟩
  pid s := s
  cost P := ⟨if P.Check (fun _ => false) detourCost ∧ P.Coverage none detourCost then some ⟨detourCost, detourCost.flow, none⟩ else none, false⟩
  edgeCost _ _ := some 1
  coverage _ _ := ⟨none, false⟩
  maxFlow _ _ _ := 0
  pairs _ := []
  redundancy _ _ _ := ⟨none, false⟩
  interf _ := .ok detourIn
  interference P I :=
    ⟨if P.ICheck I detourInterf ∧ ∀ e ∈ P.arcs, 0 ≤ detourInterf.flow e then some ⟨detourInterf, detourInterf.flow, none⟩ else none, false⟩
  geo _ := ⟨fun _ => 360, fun _ => 0⟩
  best _ _ := []

def detourParams : RunParams := { planDemoParams with maxHops := some 1 }

end Verif
