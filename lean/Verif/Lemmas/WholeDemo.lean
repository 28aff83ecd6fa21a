import Verif.Props.Whole
import Verif.Lemmas.RunDemo

/-! # A planning call on a POP and a client -/

namespace Verif
open Topology

/-- A POP and a client with a link, without sectors. -/
def wholeDemo : List Op := [
  .addSite { id := "P", siteType := .pop, status := .existing, device := { nodeCapex := 100 } } false,
  .addSite { id := "C", siteType := .cn, status := .candidate, lat := 2, subscribers := 1, device := { nodeCapex := 5 } } false,
  .addLink { tx := "P", rx := "C" }]

/-- One sector on each site, 4 Gbps on each link, a demand of 3 at each client. -/
def wholeEnv : PrepEnv where
  mean _ := 0
  radio _ := { nodes := 1, perNode := 1, scan := 360 }
  bestDn _ _ := .ok [[0]]
  bestCn _ _ := .ok [[0]]
  geo _ := ⟨fun _ => 360, fun _ => 0⟩
  estimate _ := .ok 4
  popCapacity := 10
  hash := unaryHash
  dist := gridDist
  demand := { manual := false, uniform := false, cn := true, demand := 3, radius := 1, dx := 1, dy := 1 }
  fuel := 0

def wholeVars : Vars where
  site _ := 1
  sector _ _ := 1
  flow _ := 1
  tdm e _ := if e = (.site "P", .site "C") then 1/2 else 0
  odd s := if s = "P" then 1 else 0
  shortage _ := 0

def wholeOut : Outside where
  pops _ := ⟨none, false⟩
  pid s := if s = "D" then "PD" else "PX"
  cost P := if P.p.coverage ≤ 2/3 then ⟨some ⟨wholeVars, wholeVars.flow, none⟩, false⟩ else ⟨none, false⟩
  edgeCost _ _ := some 1
  coverage _ _ := ⟨none, false⟩
  maxFlow _ _ _ := 0
  pairs _ := []
  redundancy _ _ _ := ⟨none, false⟩
  interf _ := .ok {}
  interference _ _ := ⟨some ⟨⟨wholeVars, fun _ => 1, fun _ _ => 1, fun _ _ _ => 1, fun _ _ _ => 1⟩, wholeVars.flow, none⟩, false⟩
  geo _ := ⟨fun _ => 360, fun _ => 0⟩
  best _ _ := []

theorem connectLoop_nil : ∀ (todo out : List SiteId), connectLoop [] out todo = out
  | [], out => by unfold connectLoop; rfl
  | a :: todo, out => by
    unfold connectLoop
    have e : (((Dict.get? ([] : Dict SiteId (List SiteId)) a).getD []).filter (fun x => x ∉ out)).dedup = [] := rfl
    dsimp only
    rw [e, List.append_nil, List.append_nil]
    exact connectLoop_nil todo out

/-- Without hybrid sites or shared roofs the last step of the demand changes nothing. -/
theorem connectColocated_none {t : Topology} (h : t.hybridPairs ++ t.rooftopPairs = []) : t.connectColocated = t := by
  unfold connectColocated connectDemand
  rw [h]
  simp only [List.foldl_nil, connectLoop_nil]
  have : t.demandSites.map (fun p => (p.1, { p.2 with connected := p.2.connected })) = t.demandSites := by
    conv_rhs => rw [← List.map_id t.demandSites]
    rfl
  rw [this]

/-- The topology with sectors and capacities. -/
def wholeRadio : Topology :=
  (foldOut (addCapacity wholeEnv) (setupNodes wholeEnv (run {} wholeDemo)).1 (setupNodes wholeEnv (run {} wholeDemo)).1.links.keys).1

/-- The prepared topology. -/
def wholePrepared : Topology :=
  (((wholeRadio.resetDemand wholeEnv.demand).demandSites.keys.foldl (connectNear gridDist 1 []) (wholeRadio.resetDemand wholeEnv.demand)).addCnDemand
    unaryHash 3)

theorem wholeDemo_prepared : (run {} wholeDemo).prepare wholeEnv = some (wholePrepared, none) := by
  have h1 : setupNodes wholeEnv (run {} wholeDemo) = ((setupNodes wholeEnv (run {} wholeDemo)).1, none) :=
    Prod.ext rfl (by decide +kernel)
  have h2 : foldOut (addCapacity wholeEnv) (setupNodes wholeEnv (run {} wholeDemo)).1
      (setupNodes wholeEnv (run {} wholeDemo)).1.links.keys = (wholeRadio, none) :=
    Prod.ext rfl (by decide +kernel)
  unfold prepare
  rw [h1]
  dsimp only
  rw [h2]
  show some (if wholePrepared.connectColocated.demandSites = [] then (wholePrepared.connectColocated, some Err.optimizer)
    else (wholePrepared.connectColocated, none)) = _
  rw [connectColocated_none (by decide +kernel), if_neg (by decide +kernel)]

/-- The planning call succeeds. -/
theorem wholeDemo_planned : ∃ t', planTopology wholeEnv wholeOut runDemoParams (run {} wholeDemo) = some (t', none)
    ∧ t'.links.vals.map (fun l => (l.status, l.capacity)) = [(.proposed, 4)] := by
  have h : ((optimize wholeOut runDemoParams wholePrepared).map (fun r => (r.2, r.1.links.vals.map (fun l => (l.status, l.capacity)))))
      = some (none, [(.proposed, 4)]) := by decide +kernel
  rw [Option.map_eq_some_iff] at h
  obtain ⟨⟨t', e⟩, h, he⟩ := h
  simp only [Prod.mk.injEq] at he
  obtain ⟨rfl, hl⟩ := he
  refine ⟨t', ?_, hl⟩
  unfold planTopology
  have hc : (run {} wholeDemo).preOptCheck runDemoParams.extraPops wholeEnv.demand.uniform wholeEnv.demand.manual = none := by
    decide +kernel
  rw [hc, wholeDemo_prepared]
  exact h

theorem unaryHash_inj : HashInj unaryHash := by
  intro a b c d h
  have h1 := congrArg (fun s => s.toList.length) h
  unfold unaryHash at h1
  simp only [String.toList_ofList, List.length_replicate] at h1
  have h2 := Encodable.encode_injective h1
  exact ⟨congrArg Prod.fst h2, congrArg Prod.snd h2⟩

/-- The hypotheses of C167 and C168 hold of the demo. -/
example : ∃ t', t'.demandSites.keys ≠ [] ∧ (∃ ops, t' = run {} ops) ∧
    planTopology wholeEnv wholeOut runDemoParams (run {} wholeDemo) = some (t', none) := by
  obtain ⟨t', h, _⟩ := wholeDemo_planned
  exact ⟨t', (C167_demand _ _ unaryHash_inj _ _ _ h).1, (C167_result_built _ _ _ _ _ _ h).1, h⟩

example : ∃ u, (run {} wholeDemo).prepare wholeEnv = some (u, none) :=
  C168_demand_placed wholeDemo wholeEnv unaryHash_inj _ _ (Prod.ext rfl (by decide +kernel)) (Prod.ext rfl (by decide +kernel))
    rfl rfl ⟨"C", _, rfl, rfl⟩

/-- Without the POP, and without the client. -/
example : planTopology wholeEnv wholeOut runDemoParams (run {} (wholeDemo.drop 1)) = some (run {} (wholeDemo.drop 1), some .noPop)
    ∧ planTopology wholeEnv wholeOut runDemoParams (run {} (wholeDemo.take 1)) = some (run {} (wholeDemo.take 1), some .noDemand) := by
  constructor <;> rfl

end Verif
