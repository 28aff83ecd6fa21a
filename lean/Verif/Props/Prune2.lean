import Verif.Props.Prune
import Verif.Props.Ilp
import Verif.Props.Extract3

/-! # C46 for the flows of a plan -/

namespace Verif
open Topology Plan Spec

theorem Plan.graph {P : Plan} (r : P.Ready) :
    P.arcs.Nodup ∧ (∀ e ∈ P.arcs, e.1 ≠ e.2) ∧ ∀ e ∈ P.arcs, e.1 ∈ P.locations ∧ e.2 ∈ P.locations := by
  refine ⟨arcs_nodup, ?_, r.ends⟩
  intro e he
  rcases mem_arcs.1 he with ⟨_, _, _, _, rfl⟩ | ⟨_, _, _, _, _, _, _, rfl⟩ | ⟨l, hl, rfl⟩
  · exact fun h => by cases h
  · exact fun h => by cases h
  · intro h
    injection h with h
    exact r.noLoop l hl h

/-- **C46 (plan).** Pruning the flows of a feasible plan finishes, leaves no loop,
increases no flow, and changes neither what the POPs draw from the source nor
what any demand location receives. All the links that still carry more than
1e-5 are selected in the plan extracted from the pruned flows (C83). -/
theorem C46_pruned_plan (ops : List Op) (p : OptParams) (adv : Arc → Bool) (x : Vars)
    (ok : (Plan.mk (run {} ops) p).setupErr = none)
    (feas : (Plan.mk (run {} ops) p).SiteFeasible adv x) :
    let P : Plan := ⟨run {} ops, p⟩
    ∃ n g, (∀ m, n ≤ m → pruneFlows m P.locations P.arcs x.flow = some g) ∧
      NoLoop P.arcs g (1 / 100000) ∧
      (∀ e ∈ P.arcs, 0 ≤ g e ∧ g e ≤ x.flow e) ∧
      leaving P g .source = leaving P x.flow .source ∧
      (∀ l ∈ P.demands, arriving P g l = arriving P x.flow l) ∧
      (∀ s ∈ P.t.sites.keys, arriving P g (.site s) = leaving P g (.site s)) ∧
      ∀ common sol cost, P.extract x g common = .ok (some (sol, cost)) →
        ∀ l ∈ P.t.links.vals, SectorsInPlace P.t l → 1 / 100000 < g (arcOf l) → sol.link l.id = 1 := by
  intro P
  have r := Plan.ready ok
  obtain ⟨hn, hs, he⟩ := Plan.graph r
  obtain ⟨⟨n, g, h1⟩, h2⟩ := C46_prune_loops P.locations P.arcs x.flow hn hs he
  obtain ⟨k1, k2, k3⟩ := h2 n g (h1 n (le_refl _))
  have hb : ∀ e ∈ P.arcs, 0 ≤ g e ∧ g e ≤ x.flow e :=
    fun e he => ⟨(k2 e).2 (feas.bounds.flow e he), (k2 e).1⟩
  obtain ⟨_, _, _, bal⟩ := C39_flow_bookkeeping ops p adv x ok feas
  refine ⟨n, g, h1, k1, hb, ?_, ?_, ?_, ?_⟩
  · have := k3 .source
    unfold netFlow at this
    rw [show P.arcs.filter (fun e => e.2 = Loc.source) = [] from incoming_source] at this
    simp only [List.map_nil, List.sum_nil, zero_sub, neg_inj] at this
    exact this
  · intro l hl
    obtain ⟨i, d, k, _, _, rfl⟩ := Plan.mem_demands.1 hl
    have := k3 (.demand i k)
    unfold netFlow at this
    rw [show P.arcs.filter (fun e => e.1 = Loc.demand i k) = [] from outgoing_demand] at this
    simp only [List.map_nil, List.sum_nil, sub_zero] at this
    exact this
  · intro s hs
    have h3 := k3 (.site s)
    have h4 := bal s hs
    change arriving P g (.site s) - leaving P g (.site s) =
      arriving P x.flow (.site s) - leaving P x.flow (.site s) at h3
    change arriving P x.flow (.site s) = leaving P x.flow (.site s) at h4
    linarith
  · intro common sol cost hx l hl hsec hpos
    exact C83_traffic_links_selected ops p adv x g common sol cost ok feas hb hx l hl hsec hpos

/-- The demo plan has no loops: pruning keeps its flows. -/
example :
    let P : Plan := ⟨run {} planDemo, planDemoParams⟩
    P.setupErr = none ∧ P.SiteFeasible (fun _ => false) planDemoVars ∧
    (pruneFlows 40 P.locations P.arcs planDemoVars.flow).any
      (fun g => P.arcs.map g = P.arcs.map planDemoVars.flow) = true :=
  ⟨planDemo_ok, planDemo_feasible, by decide +kernel⟩

end Verif
