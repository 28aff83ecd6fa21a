import Verif.Model.FlowExtract
import Verif.Props.MaxFlow
import Verif.Props.Prune2

/-! # C187: the routing that the report uses -/

namespace Verif
open Topology Plan Spec

namespace Plan
variable {P : Plan}

/-- Removing loops keeps a routing feasible. -/
theorem route_pruned (r : P.Ready) {conn : List Loc} {b : ℚ} {x : Vars} (feas : P.RouteFeasible conn b x)
    {n : Nat} {g : Arc → ℚ} (h : pruneFlows n P.locations P.arcs x.flow = some g) :
    P.RouteFeasible conn b { x with flow := g } ∧ NoLoop P.arcs g (1 / 100000) := by
  obtain ⟨hn, hs, he⟩ := Plan.graph r
  obtain ⟨k1, k2, k3⟩ := (C46_prune_loops P.locations P.arcs x.flow hn hs he).2 n g h
  have hle : ∀ v, P.inFlow g v ≤ P.inFlow x.flow v ∧ P.outFlow g v ≤ P.outFlow x.flow v := by
    intro v
    exact ⟨List.sum_le_sum fun e _ => (k2 e).1, List.sum_le_sum fun e _ => (k2 e).1⟩
  have hnet : ∀ v, P.inFlow g v - P.outFlow g v = P.inFlow x.flow v - P.outFlow x.flow v := k3
  refine ⟨⟨feas.site, feas.sector, fun e h => (k2 e).2 (feas.flow e h), feas.tdm, feas.tdmSector, ?_, ?_, ?_, ?_,
    feas.buffer, ?_⟩, k1⟩
  · intro e h
    have := feas.tdmFlow e h
    show if P.hasTdm e = true ∧ 0 < 1 then g e ≤ P.routeCap e * tdmSum 1 { x with flow := g } e
      else g e ≤ min (P.routeCap e) P.routeMax
    split
    · rename_i c
      rw [if_pos c] at this
      exact (k2 e).1.trans this
    · rename_i c
      rw [if_neg c] at this
      exact (k2 e).1.trans this
  · intro l hl
    obtain ⟨h1, h2⟩ := feas.flowSite l hl
    have e : siteVar { x with flow := g } l = siteVar x l := by cases l <;> rfl
    rw [e]
    exact ⟨fun c => (hle l).1.trans (h1 c), fun c => (hle l).2.trans (h2 c)⟩
  · intro e h hi
    have h0 := feas.inactive e h hi
    have := (k2 e).1
    have h2 := (k2 e).2 (feas.flow e h)
    show g e = 0
    linarith
  · intro s hs' hp ho
    exact (hle _).2.trans (feas.popLoad s hs' hp ho)
  · intro l hl c
    have := feas.balance l hl c
    cases l with
    | source => dsimp only at this ⊢; rw [hnet]; exact this
    | site s => dsimp only at this ⊢; rw [hnet]; exact this
    | demand i k => dsimp only at this ⊢; rw [hnet]; exact this

end Plan

/-- **C187.** Reading the routing of the report from the answer of the solver finishes. The
routing has no loops; it delivers exactly the reported bandwidth to every connected
demand location that has a demand link, over paths from POPs if it is positive, and nothing
to the others; sites pass on what they receive and POPs send at most their capacity; links
carry at most what their capacity and their reported share of time allow. No routing of
the active network that gives air time to PROPOSED sectors only delivers more to all
connected demand locations than the reported bandwidth. -/
theorem C187_reported_routing (ops : List Op) (p : OptParams) (conn : List Loc) (b : ℚ) (x : Vars)
    (ok : (Plan.mk (run {} ops) p).setupErr = none)
    (feas : (Plan.mk (run {} ops) p).RouteFeasible conn b x)
    (best : ∀ b' x', (Plan.mk (run {} ops) p).RouteFeasible conn b' x' → b' ≤ b) :
    let P : Plan := ⟨run {} ops, p⟩
    ∃ sol : FlowSolution, (∃ n, ∀ m, n ≤ m → P.extractFlow m conn (some (b, x)) = some (some sol)) ∧
      sol.connected = conn ∧
      NoLoop P.arcs sol.flow (1 / 100000) ∧
      (∀ id d k, P.t.demandSites.get? id = some d → k < d.numSites → d.connected ≠ [] →
        arriving P sol.flow (.demand id k) = (if Loc.demand id k ∈ sol.connected then sol.buffer else 0) ∧
        (Loc.demand id k ∈ sol.connected → 0 < sol.buffer →
          ∃ path, ServingPath P sol.flow path (.demand id k))) ∧
      (∀ s ∈ P.t.sites.keys, arriving P sol.flow (.site s) = leaving P sol.flow (.site s)) ∧
      (∀ s y, P.t.sites.get? s = some y → y.siteType = .pop → 0 ≤ p.popCapacity →
        leaving P sol.flow (.site s) ≤ p.popCapacity) ∧
      (∀ l ∈ P.t.links.vals, 0 ≤ sol.flow (arcOf l) ∧
        (0 ≤ l.capacity → l.isWireless = true → sol.flow (arcOf l) ≤ l.capacity * sol.tdm (arcOf l) ∧
          0 ≤ sol.tdm (arcOf l) ∧ sol.tdm (arcOf l) ≤ 1) ∧
        (0 ≤ l.capacity → l.isWireless = false → sol.flow (arcOf l) ≤ l.capacity)) ∧
      ∀ b' flow share, ActiveRouting P conn b' flow share →
        (∀ l ∈ P.t.links.vals, share l ≠ 0 → ∀ k k', l.sectors = some (k, k') →
          ∀ d, (P.t.sectors.get? k = some d ∨ P.t.sectors.get? k' = some d) → d.status = .proposed) →
        b' ≤ sol.buffer := by
  intro P
  have r := Plan.ready ok
  obtain ⟨hn, hs, he⟩ := Plan.graph r
  obtain ⟨⟨n, g, h1⟩, _⟩ := C46_prune_loops P.locations P.arcs x.flow hn hs he
  obtain ⟨hf, hnl⟩ := Plan.route_pruned r feas (h1 n le_rfl)
  obtain ⟨c1, c2, c3, c4, _, _⟩ := C88_routing_respects_network ops p conn b _ ok hf
  refine ⟨⟨g, fun e => x.tdm e 0, b, conn⟩, ⟨n, fun m hm => ?_⟩, rfl, hnl, ?_, c2, c3, c4, ?_⟩
  · show (pruneFlows m P.locations P.arcs x.flow).map _ = _
    rw [h1 m hm]; rfl
  · intro id d k hd hk hc
    exact ⟨c1 id d k hd hk hc, fun hl hb =>
      C88_routing_path ops p conn b _ ok hf hb id d k hd hk hc hl⟩
  · intro b' flow share h hp
    exact best b' _ (C49_proposed_sectors_partial ops p conn b' flow share h hp)

/-- **C187.** Without an answer there is no routing. -/
theorem C187_no_solution (P : Plan) (conn : List Loc) (n : Nat) (answer : Option (ℚ × Vars)) :
    P.extractFlow n conn answer = some none ↔ answer = none := by
  cases answer with
  | none => simp [extractFlow]
  | some a => simp [extractFlow]

/-- The demo routing is feasible with POPs of capacity 4 as well. -/
theorem routeDemo_tight (st : StatusType) (hst : st = .proposed) :
    ActiveRouting ⟨run {} (routeDemo st), { popCapacity := 4, costs := ⟨0, 0, 0⟩ }⟩
      [.demand "a" 0, .demand "b" 0] 2 routeDemoFlow (fun _ => 4/5) := by
  have key : ∀ st, st = .proposed →
      let P : Plan := ⟨run {} (routeDemo st), { popCapacity := 4, costs := ⟨0, 0, 0⟩ }⟩
      (∀ e ∈ P.arcs, activeAt P e.1 = true ∧ activeAt P e.2 = true) ∧
      (∀ kd ∈ P.t.sectors, ((sentBy P kd.2.site kd.1).map (fun _ => (4/5 : ℚ))).sum ≤ 1 ∧
        ((heardBy P kd.2.site kd.1).map (fun _ => (4/5 : ℚ))).sum ≤ 1) ∧
      (∀ sy ∈ P.t.sites, sy.2.siteType = .pop → leaving P routeDemoFlow (.site sy.1) ≤ P.p.popCapacity) ∧
      (∀ e ∈ P.arcs, (e.2 = .demand "a" 0 ∨ e.2 = .demand "b" 0 ∨ e.1 = .source ∨ e.2 = .site "C") ∧
        (e.2 = .demand "a" 0 ∨ e.2 = .demand "b" 0 → routeDemoFlow e ≤ P.maxLinkCap)) ∧
      (∀ l ∈ P.t.links.vals, l.isWireless = true ∧ routeDemoFlow (arcOf l) ≤ l.capacity * (4/5) ∧
        l.isRedundant = false ∧ l.status.active = true ∧ l.sectors.isSome = true) ∧
      (∀ e ∈ P.arcs, 0 ≤ routeDemoFlow e) ∧
      (∀ e ∈ P.arcs,
        arriving P routeDemoFlow e.2 ≤ ((P.t.popIds (fun _ => true)).length : ℚ) * P.p.popCapacity ∧
        leaving P routeDemoFlow e.1 ≤ ((P.t.popIds (fun _ => true)).length : ℚ) * P.p.popCapacity) ∧
      (∀ l ∈ P.demands, arriving P routeDemoFlow l =
        if l ∈ [Loc.demand "a" 0, Loc.demand "b" 0] then 2 else 0) ∧
      (∀ s ∈ P.t.sites.keys, arriving P routeDemoFlow (.site s) = leaving P routeDemoFlow (.site s)) := by
    intro st h
    subst h
    exact ⟨by decide +kernel, by decide +kernel, by decide +kernel, by decide +kernel,
        by decide +kernel, by decide +kernel, by decide +kernel, by decide +kernel, by decide +kernel⟩
  obtain ⟨h1, h2, h3, h4, h5, h6, h7, h8, h9⟩ := key st hst
  have inv := Inv.empty.run (routeDemo st)
  refine ⟨h6, fun _ _ => by norm_num, fun l hl _ => (h5 l hl).2.1, ?_, ?_, ?_,
    fun k d h => (h2 (k, d) (Dict.mem_of_get? _ h)).1, fun k d h => (h2 (k, d) (Dict.mem_of_get? _ h)).2,
    fun s y h ht => h3 (s, y) (Dict.mem_of_get? _ h) ht, h7, ?_, by norm_num, h8, h9⟩
  · intro l hl h
    rw [(h5 l hl).1] at h; cases h
  · intro l hl _
    exact ⟨(h5 l hl).2.2.1, (h5 l hl).2.2.2.1, fun _ => (h5 l hl).2.2.2.2⟩
  · intro e he _ s hs
    have : activeAt ⟨run {} (routeDemo st), { popCapacity := 4, costs := ⟨0, 0, 0⟩ }⟩ (.site s) = true := by
      rcases hs with hs | hs <;> rw [← hs]
      · exact (h1 e he).1
      · exact (h1 e he).2
    obtain ⟨a, b⟩ := (Option.any_eq_true_iff_get _ _).1 this
    exact ⟨_, (Option.some_get a).symm, b⟩
  · intro s i k he
    obtain ⟨h, h'⟩ := h4 _ he
    apply h'
    rcases h with h | h | h | h
    · exact Or.inl h
    · exact Or.inr h
    · cases h
    · cases h

/-- The hypotheses of C187 on the demo network with a POP of capacity 4: the best common
bandwidth of its two demand sites is 2. -/
example :
    let P : Plan := ⟨run {} (routeDemo .proposed), { popCapacity := 4, costs := ⟨0, 0, 0⟩ }⟩
    let conn := [Loc.demand "a" 0, Loc.demand "b" 0]
    P.setupErr = none ∧ ∃ x, P.RouteFeasible conn 2 x ∧ ∀ b' x', P.RouteFeasible conn b' x' → b' ≤ 2 := by
  intro P conn
  refine ⟨by decide +kernel, P.routeVars routeDemoFlow (fun _ => 4/5),
    C49_proposed_sectors_partial _ _ _ _ _ _ (routeDemo_tight _ rfl) ?_, ?_⟩
  · intro l _ _ k k' _ d hd
    have h : ∀ kd ∈ (run {} (routeDemo .proposed)).sectors, kd.2.status = .proposed := by decide +kernel
    rcases hd with hd | hd
    · exact h _ (Dict.mem_of_get? _ hd)
    · exact h _ (Dict.mem_of_get? _ hd)
  · intro b x feas
    have h1 := Plan.route_site feas "C" (by decide +kernel)
    have i1 : P.incoming (.site "C") = [(.site "P", .site "C")] := by decide +kernel
    have o1 : P.outgoing (.site "C") = [(.site "C", .demand "a" 0), (.site "C", .demand "b" 0)] := by
      decide +kernel
    have o2 : P.outgoing (.site "P") = [(.site "P", .site "C")] := by decide +kernel
    have ia : P.incoming (.demand "a" 0) = [(.site "C", .demand "a" 0)] := by decide +kernel
    have ib : P.incoming (.demand "b" 0) = [(.site "C", .demand "b" 0)] := by decide +kernel
    have hp := feas.popLoad "P" (by decide +kernel) (by decide +kernel) (by rw [o2]; simp)
    have ha := Plan.route_demand feas (id := "a") (k := 0) rfl (by decide) (by decide)
    have hb := Plan.route_demand feas (id := "b") (k := 0) rfl (by decide) (by decide)
    rw [if_pos (by simp [conn])] at ha hb
    unfold Plan.inFlow at h1 ha hb
    unfold Plan.outFlow at h1 hp
    rw [i1, o1] at h1
    rw [ia] at ha
    rw [ib] at hb
    rw [o2] at hp
    simp only [List.map_cons, List.map_nil, List.sum_cons, List.sum_nil, add_zero] at h1 ha hb hp
    have : P.p.popCapacity = 4 := rfl
    linarith

end Verif
