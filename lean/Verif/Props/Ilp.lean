import Verif.Lemmas.IlpDemo
import Verif.Spec.Ilp
import Verif.Props.Topology
import Verif.Props.Colocate
import Mathlib.Logic.Relation

/-! # C39-C43, C51: what every feasible plan satisfies -/

namespace Verif
open Topology Spec

namespace Plan
variable {P : Plan}

theorem sum_zero_of_nonneg {α : Type} (L : List α) (f : α → ℚ) (h0 : ∀ a ∈ L, 0 ≤ f a)
    (hs : (L.map f).sum = 0) : ∀ a ∈ L, f a = 0 := by
  intro a ha
  have h1 : f a ≤ (L.map f).sum := List.single_le_sum (by
    intro y hy; obtain ⟨b, hb, rfl⟩ := List.mem_map.1 hy; exact h0 b hb) _ (List.mem_map_of_mem ha)
  exact le_antisymm (hs ▸ h1) (h0 a ha)

theorem sum_le_zero {α : Type} (L : List α) (f : α → ℚ) (h : ∀ a ∈ L, f a ≤ 0) :
    (L.map f).sum ≤ 0 := by
  induction L with
  | nil => simp
  | cons a L ih =>
    have h1 := h a (by simp)
    have h2 := ih (fun b hb => h b (by simp [hb]))
    simp only [List.map_cons, List.sum_cons]
    linarith

/-- Net flow of every location, with or without links. -/
theorem balance_all {x : Vars} (hs : P.t.sites.NodupKeys) (hd : P.t.demandSites.NodupKeys)
    (r : P.Ready) (hsh : ∀ l ∈ P.demands, 0 ≤ x.shortage l ∧ x.shortage l ≤ P.demandAt l)
    (hb : P.FlowBalance x) :
    ∀ l ∈ P.locations, P.inFlow x.flow l - P.outFlow x.flow l = P.balanceRhs x l := by
  have nd := locations_nodup hs hd
  have hc := cut_sum r nd x.flow (fun _ => True)
  have hz : (P.arcs.map (fun e => (if True then x.flow e else 0) - (if True then x.flow e else 0))).sum
      = 0 := by
    simp
  rw [hz] at hc
  have hf : P.locations.filter (fun l => decide True) = P.locations := by simp
  rw [hf] at hc
  -- difference between right-hand side and net flow
  let g : Loc → ℚ := fun l => P.balanceRhs x l - (P.inFlow x.flow l - P.outFlow x.flow l)
  have hsrc : g .source = 0 := by
    obtain ⟨s, y, h1, h2⟩ := r.pop
    have : (Loc.source, Loc.site s) ∈ P.arcs := mem_arcs.2 (Or.inl ⟨s, y, h1, h2, rfl⟩)
    have ho : P.outgoing .source ≠ [] := by
      intro h
      have := mem_outgoing.2 ⟨this, rfl⟩
      rw [h] at this
      cases this
    have := hb .source (mem_locations.2 (Or.inl rfl)) (Or.inr ho)
    show P.balanceRhs x .source - _ = 0
    rw [this]; ring
  have hg : ∀ l ∈ P.locations, 0 ≤ g l := by
    intro l hl
    by_cases c : P.incoming l ≠ [] ∨ P.outgoing l ≠ []
    · show 0 ≤ P.balanceRhs x l - _
      rw [hb l hl c]; simp
    · simp only [ne_eq, not_or, not_not] at c
      show 0 ≤ P.balanceRhs x l - _
      rw [inFlow_nil c.1, outFlow_nil c.2]
      rcases mem_locations.1 hl with rfl | ⟨s, _, rfl⟩ | h
      · have := hsrc
        change P.balanceRhs x .source - (P.inFlow x.flow .source - P.outFlow x.flow .source) = 0 at this
        rw [inFlow_nil c.1, outFlow_nil c.2] at this
        linarith
      · simp [balanceRhs]
      · have := hsh l h
        obtain ⟨i, d, k, _, _, rfl⟩ := mem_demands.1 h
        simp only [balanceRhs]
        linarith
  have hrhs : (P.locations.map (P.balanceRhs x)).sum = 0 := by
    unfold locations
    rw [List.map_cons, List.sum_cons, List.map_append, List.sum_append, List.map_map]
    have h1 : ((P.t.sites.keys.map (P.balanceRhs x ∘ Loc.site))).sum = 0 := by
      rw [List.sum_eq_zero]; intro y hy; obtain ⟨s, _, rfl⟩ := List.mem_map.1 hy; rfl
    have h2 : (P.demands.map (P.balanceRhs x)).sum =
        (P.demands.map P.demandAt).sum - (P.demands.map x.shortage).sum := by
      have : ∀ L : List Loc, (∀ l ∈ L, l ∈ P.demands) → (L.map (P.balanceRhs x)).sum =
          (L.map P.demandAt).sum - (L.map x.shortage).sum := by
        intro L
        induction L with
        | nil => simp
        | cons a L ih =>
          intro h
          obtain ⟨i, d, k, _, _, rfl⟩ := mem_demands.1 (h a (by simp))
          simp only [List.map_cons, List.sum_cons, ih (fun l hl => h l (by simp [hl])), balanceRhs]
          ring
      exact this _ (fun _ h => h)
    rw [h1, h2]
    simp only [balanceRhs, maxThroughput]
    ring
  have hsum : (P.locations.map g).sum = 0 := by
    have : ∀ L : List Loc, (L.map g).sum = (L.map (P.balanceRhs x)).sum -
        (L.map (fun l => P.inFlow x.flow l - P.outFlow x.flow l)).sum := by
      intro L
      induction L with
      | nil => simp
      | cons a L ih => simp only [List.map_cons, List.sum_cons, ih, g]; ring
    rw [this, hrhs, hc]; ring
  intro l hl
  have := sum_zero_of_nonneg _ g hg hsum l hl
  simp only [g] at this
  linarith

theorem demandAt_of {P : Plan} {id : DemandId} {d : DemandSite} {q : ℚ}
    (h : P.t.demandSites.get? id = some d) (hq : d.demand = some q) (k : Nat) :
    P.demandAt (.demand id k) = q / P.p.oversubscription := by
  unfold demandAt
  dsimp only
  rw [h]; dsimp only; rw [hq]; rfl

theorem demands_sum {P : Plan} (nd : P.t.demandSites.NodupKeys) :
    (P.demands.map P.demandAt).sum = totalDemand P := by
  unfold demands copies totalDemand Dict.vals
  rw [List.map_map, List.map_flatMap]
  have key : ∀ L : Dict DemandId DemandSite, (∀ e ∈ L, e ∈ P.t.demandSites) →
      ((L.flatMap fun e => ((List.range e.2.numSites).map fun k => (e.1, k, e.2)).map
        (P.demandAt ∘ fun c => Loc.demand c.1 c.2.1)).sum : ℚ) =
      ((L.map (·.2)).map fun d => (d.numSites : ℚ) * (d.demand.getD 0 / P.p.oversubscription)).sum := by
    intro L
    induction L with
    | nil => intro _; rfl
    | cons e L ih =>
      intro h
      rw [List.flatMap_cons, List.sum_append, ih (fun a ha => h a (by simp [ha])), List.map_cons,
        List.map_cons, List.sum_cons]
      congr 1
      have hg : P.t.demandSites.get? e.1 = some e.2 :=
        (Dict.mem_iff_get? nd e.1 e.2).1 (h e (by simp))
      rw [List.map_map]
      have : (List.range e.2.numSites).map ((P.demandAt ∘ fun c : DemandId × Nat × DemandSite =>
          Loc.demand c.1 c.2.1) ∘ fun k => (e.1, k, e.2)) =
          (List.range e.2.numSites).map (fun _ => e.2.demand.getD 0 / P.p.oversubscription) := by
        apply List.map_congr_left
        intro k _
        simp only [Function.comp, demandAt, hg]
      rw [this, List.map_const', List.sum_replicate, List.length_range, nsmul_eq_mul]
  exact key _ (fun _ h => h)

end Plan

/-- **C39.** In every feasible plan what arrives at each demand location is its
demand less its shortage (between 0 and the demand); what the POPs draw from
the source is the total demand less the total shortage, which is also what all
demand locations receive; and what arrives at a site leaves it. -/
theorem C39_flow_bookkeeping (ops : List Op) (p : OptParams) (adv : Arc → Bool) (x : Vars)
    (ok : (Plan.mk (run {} ops) p).setupErr = none)
    (feas : (Plan.mk (run {} ops) p).SiteFeasible adv x) :
    let P : Plan := ⟨run {} ops, p⟩
    leaving P x.flow .source = totalDemand P - totalShortage P x ∧
    (P.demands.map (arriving P x.flow)).sum = totalDemand P - totalShortage P x ∧
    (∀ id d q k, P.t.demandSites.get? id = some d → d.demand = some q → k < d.numSites →
      arriving P x.flow (.demand id k) = q / p.oversubscription - x.shortage (.demand id k) ∧
      0 ≤ x.shortage (.demand id k) ∧ x.shortage (.demand id k) ≤ q / p.oversubscription) ∧
    (∀ s ∈ P.t.sites.keys, arriving P x.flow (.site s) = leaving P x.flow (.site s)) := by
  intro P
  have inv := Inv.empty.run ops
  have r := Plan.ready ok
  have hb := Plan.balance_all (P := P) inv.nd_sites inv.nd_demand r feas.bounds.shortage
    feas.flowBalance
  have hd : ∀ l ∈ P.demands, arriving P x.flow l = P.demandAt l - x.shortage l := by
    intro l hl
    have := hb l (Plan.mem_locations.2 (Or.inr (Or.inr hl)))
    obtain ⟨i, d, k, _, _, rfl⟩ := Plan.mem_demands.1 hl
    rw [Plan.outFlow_nil Plan.outgoing_demand] at this
    simp only [Plan.balanceRhs, sub_zero] at this
    exact this
  have ht : (P.demands.map P.demandAt).sum = totalDemand P := Plan.demands_sum inv.nd_demand
  refine ⟨?_, ?_, ?_, ?_⟩
  · have := hb .source (Plan.mem_locations.2 (Or.inl rfl))
    rw [Plan.inFlow_nil Plan.incoming_source] at this
    simp only [Plan.balanceRhs, Plan.maxThroughput] at this
    change _ - leaving P x.flow .source = _ at this
    rw [ht] at this
    unfold totalShortage
    linarith
  · rw [← ht]
    unfold totalShortage
    have : ∀ L : List Loc, (∀ l ∈ L, l ∈ P.demands) → (L.map (arriving P x.flow)).sum =
        (L.map P.demandAt).sum - (L.map x.shortage).sum := by
      intro L
      induction L with
      | nil => simp
      | cons a L ih =>
        intro h
        simp only [List.map_cons, List.sum_cons, ih (fun l hl => h l (by simp [hl])),
          hd a (h a (by simp))]
        ring
    exact this _ (fun _ h => h)
  · intro id d q k hg hq hk
    have hl : Loc.demand id k ∈ P.demands :=
      Plan.mem_demands.2 ⟨id, d, k, Dict.mem_of_get? _ hg, hk, rfl⟩
    have e := Plan.demandAt_of (P := P) hg hq k
    have h2 := feas.bounds.shortage _ hl
    rw [← show P.p.oversubscription = p.oversubscription from rfl, ← e]
    exact ⟨hd _ hl, h2⟩
  · intro s hs
    have := hb (.site s) (Plan.mem_locations.2 (Or.inr (Or.inl ⟨s, hs, rfl⟩)))
    simp only [Plan.balanceRhs] at this
    change arriving P x.flow (.site s) - leaving P x.flow (.site s) = 0 at this
    linarith

namespace Plan
variable {P : Plan}

/-- A location that receives flow, other than by being the source, is reachable
from the source over links that carry flow. -/
theorem reach_of_positive {x : Vars} (hs : P.t.sites.NodupKeys) (hd : P.t.demandSites.NodupKeys)
    (r : P.Ready) (hsh : ∀ l ∈ P.demands, 0 ≤ x.shortage l ∧ x.shortage l ≤ P.demandAt l)
    (hf : ∀ e ∈ P.arcs, 0 ≤ x.flow e)
    (hb : P.FlowBalance x) {l : Loc} (hl : l ∈ P.demands) (hpos : 0 < P.inFlow x.flow l) :
    Relation.ReflTransGen (Carries P x.flow) .source l := by
  classical
  by_contra c
  have nd := locations_nodup hs hd
  have hall := balance_all hs hd r hsh hb
  let U : Loc → Prop := fun v => ¬ Relation.ReflTransGen (Carries P x.flow) .source v
  have hc := cut_sum r nd x.flow U
  -- no flow enters U
  have hle : (P.arcs.map (fun e => (if U e.2 then x.flow e else 0) -
      (if U e.1 then x.flow e else 0))).sum ≤ 0 := by
    apply sum_le_zero
    intro e he
    have h0 := hf e he
    by_cases c2 : U e.2
    · by_cases c1 : U e.1
      · simp [c1, c2]
      · have hr : Relation.ReflTransGen (Carries P x.flow) .source e.1 := by
          by_contra h; exact c1 h
        have : ¬ 0 < x.flow e := fun hp => c2 (hr.tail ⟨he, hp⟩)
        simp only [c2, c1, if_true, if_false]
        linarith
    · simp only [c2, if_false]
      split <;> linarith
  have hge : 0 < ((P.locations.filter (fun v => U v)).map
      (fun v => P.inFlow x.flow v - P.outFlow x.flow v)).sum := by
    have hUl : l ∈ P.locations.filter (fun v => U v) := by
      rw [List.mem_filter]
      exact ⟨mem_locations.2 (Or.inr (Or.inr hl)), by simpa [U] using c⟩
    have hnn : ∀ v ∈ P.locations.filter (fun v => U v),
        0 ≤ P.inFlow x.flow v - P.outFlow x.flow v := by
      intro v hv
      rw [List.mem_filter] at hv
      rw [hall v hv.1]
      rcases mem_locations.1 hv.1 with rfl | ⟨s, _, rfl⟩ | h
      · exact absurd Relation.ReflTransGen.refl (by simpa [U] using hv.2)
      · simp [balanceRhs]
      · have := hsh v h
        obtain ⟨i, d, k, _, _, rfl⟩ := mem_demands.1 h
        simp only [balanceRhs]; linarith
    have h1 : P.inFlow x.flow l - P.outFlow x.flow l ≤ ((P.locations.filter (fun v => U v)).map
        (fun v => P.inFlow x.flow v - P.outFlow x.flow v)).sum := by
      apply List.single_le_sum
      · intro y hy; obtain ⟨v, hv, rfl⟩ := List.mem_map.1 hy; exact hnn v hv
      · exact List.mem_map.2 ⟨l, hUl, rfl⟩
    obtain ⟨i, d, k, _, _, rfl⟩ := mem_demands.1 hl
    rw [outFlow_nil outgoing_demand] at h1
    linarith
  rw [hc] at hge
  linarith

/-- From reachability to an explicit path of sites. -/
theorem path_to_site {f : Arc → ℚ} (nd : P.t.sites.NodupKeys) {l : Loc}
    (h : Relation.ReflTransGen (Carries P f) .source l) (s : SiteId) (hl : l = .site s) :
    ∃ path : List SiteId, path.getLast? = some s ∧
      (∃ p x, path.head? = some p ∧ P.t.sites.get? p = some x ∧ x.siteType = .pop ∧
        Carries P f .source (.site p)) ∧
      path.IsChain (fun a b => Carries P f (.site a) (.site b)) := by
  induction h generalizing s with
  | refl => cases hl
  | @tail b c hb hbc ih =>
    subst hl
    rcases mem_arcs.1 hbc.1 with ⟨s', y, h1, h2, h3⟩ | ⟨_, _, _, _, _, _, _, h⟩ | ⟨l, _, h⟩
    · injection h3 with e1 e2
      injection e2 with e2
      subst e1 e2
      exact ⟨[s], rfl, ⟨s, y, rfl, (Dict.mem_iff_get? nd _ _).1 h1, h2, hbc⟩, by simp⟩
    · simp at h
    · injection h with e1 e2
      subst e1
      obtain ⟨path, g1, ⟨p, x, g2, g3⟩, g4⟩ := ih l.tx rfl
      refine ⟨path ++ [s], by simp, ⟨p, x, ?_, g3⟩, ?_⟩
      · cases path with
        | nil => cases g2
        | cons a t => simpa using g2
      · rw [List.isChain_append]
        refine ⟨g4, by simp, ?_⟩
        intro a ha b hb'
        simp only [List.head?_cons, Option.mem_def, Option.some.injEq] at hb'
        rw [Option.mem_def, g1, Option.some.injEq] at ha
        subst ha hb'
        exact hbc

theorem path_to_demand {f : Arc → ℚ} (nd : P.t.sites.NodupKeys) {i : DemandId} {k : Nat}
    (h : Relation.ReflTransGen (Carries P f) .source (.demand i k)) :
    ∃ path, ServingPath P f path (.demand i k) := by
  rcases Relation.ReflTransGen.cases_tail h with h | ⟨b, hb, hbc⟩
  · cases h
  · rcases mem_arcs.1 hbc.1 with ⟨s', y, h1, h2, h3⟩ | ⟨_, _, _, s, _, _, _, h⟩ | ⟨l, _, h⟩
    · simp at h3
    · injection h with e1 e2
      subst e1
      obtain ⟨path, g1, g2, g3⟩ := path_to_site nd hb s rfl
      exact ⟨path, g2, g3, s, g1, hbc⟩
    · simp at h

/-- Flow on a link means both ends are selected. -/
theorem selected_of_flow {x : Vars} {m : ℚ} (r : P.Ready)
    (hsite : ∀ s ∈ P.t.sites.keys, x.site s = 0 ∨ x.site s = 1)
    (hf : ∀ e ∈ P.arcs, 0 ≤ x.flow e) (hfs : P.FlowSite m x) {e : Arc} (he : e ∈ P.arcs)
    (hp : 0 < x.flow e) {s : SiteId} (h : e.1 = .site s ∨ e.2 = .site s) : x.site s = 1 := by
  have hloc : Loc.site s ∈ P.locations := by
    rcases h with h | h
    · exact h ▸ (r.ends e he).1
    · exact h ▸ (r.ends e he).2
  have hk : s ∈ P.t.sites.keys := by
    rcases mem_locations.1 hloc with h | ⟨s', h1, h2⟩ | h
    · cases h
    · injection h2 with h2; exact h2 ▸ h1
    · obtain ⟨_, _, _, _, _, h⟩ := mem_demands.1 h; cases h
  rcases hsite s hk with h0 | h1
  · exfalso
    rcases h with h | h
    · have h1 := flow_le_outFlow hf he
      rw [h] at h1
      have h2 := (hfs _ hloc).2 (by
        intro c
        have := mem_outgoing.2 ⟨he, h⟩
        rw [c] at this; cases this)
      simp only [siteVar, h0, mul_zero] at h2
      linarith
    · have h1 := flow_le_inFlow hf he
      rw [h] at h1
      have h2 := (hfs _ hloc).1 (by
        intro c
        have := mem_incoming.2 ⟨he, h⟩
        rw [c] at this; cases this)
      simp only [siteVar, h0, mul_zero] at h2
      linarith
  · exact h1

end Plan

/-- **C40.** In every feasible plan, a demand location that receives anything is
joined to a POP by a path of links that all carry flow and whose sites are all
selected. -/
theorem C40_serving_path (ops : List Op) (p : OptParams) (adv : Arc → Bool) (x : Vars)
    (ok : (Plan.mk (run {} ops) p).setupErr = none)
    (feas : (Plan.mk (run {} ops) p).SiteFeasible adv x) (l : Loc)
    (hl : l ∈ (Plan.mk (run {} ops) p).demands)
    (hpos : 0 < arriving ⟨run {} ops, p⟩ x.flow l) :
    ∃ path, ServingPath ⟨run {} ops, p⟩ x.flow path l ∧ ∀ s ∈ path, x.site s = 1 := by
  have inv := Inv.empty.run ops
  have r := Plan.ready ok
  generalize hP : (Plan.mk (run {} ops) p) = P at *
  have hi : Inv P.t := by rw [← hP]; exact inv
  have hr := Plan.reach_of_positive hi.nd_sites hi.nd_demand r feas.bounds.shortage
    feas.bounds.flow feas.flowBalance hl hpos
  obtain ⟨i, d, k, _, _, rfl⟩ := Plan.mem_demands.1 hl
  obtain ⟨path, h⟩ := Plan.path_to_demand hi.nd_sites hr
  refine ⟨path, h, ?_⟩
  -- every site of the path is the start of a carrying link
  have sel : ∀ s b, Carries P x.flow (.site s) b → x.site s = 1 := fun s b hc =>
    Plan.selected_of_flow r feas.bounds.site feas.bounds.flow feas.flowSite hc.1 hc.2 (Or.inl rfl)
  obtain ⟨q, hq, hqc⟩ := h.finish
  have gen : ∀ path : List SiteId, path.IsChain (fun a b => Carries P x.flow (.site a) (.site b)) →
      path.getLast? = some q → ∀ s ∈ path, x.site s = 1 := by
    intro path
    induction path with
    | nil => intro _ _ s hs; cases hs
    | cons a t ih =>
      intro hc hlast s hs
      cases t with
      | nil =>
        simp only [List.getLast?_singleton, Option.some.injEq] at hlast
        subst hlast
        simp only [List.mem_singleton] at hs
        exact hs ▸ sel _ _ hqc
      | cons b t =>
        rw [List.isChain_cons_cons] at hc
        rcases List.mem_cons.1 hs with rfl | hs
        · exact sel _ _ hc.1
        · exact ih hc.2 (by simpa using hlast) s hs
  exact gen path h.hops hq

/-- `C39_flow_bookkeeping` and `C40_serving_path` on the demo network: 3/2 is
demanded, 1 is delivered along P, D, C. -/
example :
    let P : Plan := ⟨run {} planDemo, planDemoParams⟩
    P.setupErr = none ∧ P.SiteFeasible (fun _ => false) planDemoVars ∧
    totalDemand P = 3/2 ∧ totalShortage P planDemoVars = 1/2 ∧
    leaving P planDemoVars.flow .source = 1 ∧
    P.demands = [.demand "q" 0] ∧ arriving P planDemoVars.flow (.demand "q" 0) = 1 ∧
    P.t.sites.keys.length = 4 :=
  ⟨planDemo_ok, planDemo_feasible, by decide +kernel, by decide +kernel, by decide +kernel,
    by decide +kernel, by decide +kernel, by decide +kernel⟩

end Verif
