import Verif.Lemmas.Via3
import Verif.Lemmas.RunDemo
import Verif.Props.Phases

/-!
# The coverage a planning run settles for, why it gives up, and what the result looks like (C157–C160)
-/

namespace Verif
open Topology
open Spec

namespace Topology

/-- The planning problem for coverage `c`. -/
def Spec.problem (t : Topology) (p : OptParams) (c : ℚ) : Plan := ⟨t, { p with coverage := c }⟩

/-- No plan comes out for coverage `c`: the POPs are too weak, or the solver finds nothing, or a plan without flow. -/
def Spec.NoPlan (O : Outside) (t : Topology) (p : OptParams) (c : ℚ) : Prop :=
  t.maxPopCapacity p.popCapacity StatusType.reachable < (problem t p c).maxThroughput * c ∨
  (O.cost (problem t p c)).found = none ∨
  ∃ f, (O.cost (problem t p c)).found = some f ∧ (problem t p c).extract f.vars f.flow f.common = .ok none

theorem noPlan_of {O : Outside} {t : Topology} {p : OptParams} {c : ℚ} {b : Bool}
    (h : costTry O t p c = .ok (none, b)) : NoPlan O t p c ∧
      b = (if (problem t p c).minCostExit then false else (O.cost (problem t p c)).timedOut) := by
  unfold costTry at h
  dsimp only at h
  change (if (problem t p c).minCostExit = true then _ else _) = _ at h
  split at h
  · rename_i he
    cases h
    rw [if_pos he]
    exact ⟨.inl (of_decide_eq_true he), rfl⟩
  · rename_i he
    rw [if_neg he]
    change (match (O.cost (problem t p c)).found with | none => _ | some f => _) = _ at h
    cases hf : (O.cost (problem t p c)).found with
    | none =>
      rw [hf] at h
      cases h
      exact ⟨.inr (.inl hf), rfl⟩
    | some f =>
      rw [hf] at h
      dsimp only at h
      change (match (problem t p c).extract f.vars f.flow f.common with | .error e => _ | .ok none => _ | .ok (some (sol, _)) => _) = _ at h
      rcases hx : (problem t p c).extract f.vars f.flow f.common with e | _ | ⟨sol, k⟩
      · rw [hx] at h; cases h
      · rw [hx] at h
        cases h
        exact ⟨.inr (.inr ⟨f, hf, hx⟩), rfl⟩
      · rw [hx] at h; cases h

theorem plan_of {O : Outside} {t : Topology} {p : OptParams} {c : ℚ} {b : Bool} {sol : Solution}
    (h : costTry O t p c = .ok (some sol, b)) : ∃ f cost, (O.cost (problem t p c)).found = some f ∧
      (problem t p c).extract f.vars f.flow f.common = .ok (some (sol, cost)) ∧
      (problem t p c).maxThroughput * c ≤ t.maxPopCapacity p.popCapacity StatusType.reachable := by
  unfold costTry at h
  dsimp only at h
  change (if (problem t p c).minCostExit = true then _ else _) = _ at h
  split at h
  · cases h
  · rename_i he
    have hcap : (problem t p c).maxThroughput * c ≤ t.maxPopCapacity p.popCapacity StatusType.reachable :=
      not_lt.1 fun q => he (decide_eq_true q)
    change (match (O.cost (problem t p c)).found with | none => _ | some f => _) = _ at h
    cases hf : (O.cost (problem t p c)).found with
    | none => rw [hf] at h; cases h
    | some f =>
      rw [hf] at h
      dsimp only at h
      change (match (problem t p c).extract f.vars f.flow f.common with | .error e => _ | .ok none => _ | .ok (some (sol, _)) => _) = _ at h
      rcases hx : (problem t p c).extract f.vars f.flow f.common with e | _ | ⟨sol', k⟩
      · rw [hx] at h; cases h
      · rw [hx] at h; cases h
      · rw [hx] at h
        cases h
        exact ⟨f, k, rfl, hx, hcap⟩

theorem costLoop_some {attempt : ℚ → Except Err (Option Solution × Bool)} {L : List ℚ} {b b' : Bool} {sol : Solution}
    (h : costLoop attempt L b = .ok (some sol, b')) : ∃ A c B, L = A ++ c :: B ∧ attempt c = .ok (some sol, b') ∧
      ∀ a ∈ A, ∃ q, attempt a = .ok (none, q) := by
  induction L generalizing b with
  | nil => simp [costLoop] at h
  | cons c rest ih =>
    unfold costLoop at h
    split at h
    · cases h
    · rename_i s q hq
      cases h
      exact ⟨[], c, rest, rfl, hq, by simp⟩
    · rename_i q hq
      obtain ⟨A, d, B, e, h1, h2⟩ := ih h
      refine ⟨c :: A, d, B, by rw [e]; rfl, h1, ?_⟩
      intro a ha
      rcases List.mem_cons.1 ha with rfl | ha
      · exact ⟨q, hq⟩
      · exact h2 a ha

theorem costLoop_none {attempt : ℚ → Except Err (Option Solution × Bool)} {L : List ℚ} {b b' : Bool}
    (h : costLoop attempt L b = .ok (none, b')) : (∀ a ∈ L, ∃ q, attempt a = .ok (none, q)) ∧
      ∀ c, L.getLast? = some c → attempt c = .ok (none, b') := by
  induction L generalizing b with
  | nil => simp
  | cons c rest ih =>
    unfold costLoop at h
    split at h
    · cases h
    · cases h
    · rename_i q hq
      obtain ⟨h1, h2⟩ := ih h
      refine ⟨?_, ?_⟩
      · intro a ha
        rcases List.mem_cons.1 ha with rfl | ha
        · exact ⟨q, hq⟩
        · exact h1 a ha
      · intro d hd
        cases rest with
        | nil =>
          simp only [List.getLast?_singleton, Option.some.injEq] at hd
          subst hd
          simp only [costLoop, Except.ok.injEq, Prod.mk.injEq, true_and] at h
          rw [hq, h]
        | cons e rest => exact h2 d (by simpa using hd)

theorem phase_none {o : Option Out} {t' : Topology} (h : o.map Out.phase = some (t', none)) : o = some (t', none) := by
  rw [Option.map_eq_some_iff] at h
  obtain ⟨⟨a, e⟩, ha, hb⟩ := h
  simp only [Out.phase, Prod.mk.injEq, Option.map_eq_none_iff] at hb
  rw [ha, hb.1, hb.2]

theorem costStep_ok {O : Outside} {p : OptParams} {t t' : Topology} (h : costStep O p t = some (t', none)) :
    (Plan.mk t p).setupErr = none ∧
    ∃ sol b, costLoop (costTry O t p) coverages false = .ok (some sol, b) ∧ updateWithSolution sol t = some (t', none) := by
  unfold costStep at h
  split at h
  · simp at h
  · rename_i hs
    refine ⟨hs, ?_⟩
    split at h
    · simp at h
    · rename_i sol b hq
      exact ⟨sol, b, hq, phase_none h⟩
    · simp at h
    · split at h <;> simp at h

end Topology

/-- **C157**: the minimum cost step takes the plan of the highest of the coverages 100 %, 90 %, …, 50 % for which one
comes out, and applies it. -/
theorem C157_highest_coverage (O : Outside) (p : OptParams) (t t' : Topology)
    (h : costStep O p t = some (t', none)) :
    ∃ (k : Nat) (f : Found Vars) (sol : Solution) (cost : ℚ), k ≤ 5 ∧
      let c : ℚ := 1 - k / 10
      (O.cost (problem t p c)).found = some f ∧
      (problem t p c).extract f.vars f.flow f.common = .ok (some (sol, cost)) ∧
      updateWithSolution sol t = some (t', none) ∧
      (problem t p c).maxThroughput * c ≤ t.maxPopCapacity p.popCapacity StatusType.reachable ∧
      ∀ j < k, NoPlan O t p (1 - j / 10) := by
  obtain ⟨-, sol, b, hl, hu⟩ := costStep_ok h
  obtain ⟨A, c, B, e, h1, h2⟩ := costLoop_some hl
  obtain ⟨f, cost, g1, g2, g3⟩ := plan_of h1
  have key : ∀ k : Nat, k ≤ 5 → coverages[k]? = some (1 - (k : ℚ) / 10) := by
    intro k hk
    interval_cases k <;> decide +kernel
  have hlen : A.length ≤ 5 := by
    have := congrArg List.length e
    simp [coverages] at this
    omega
  have hc : c = 1 - (A.length : ℚ) / 10 := by
    have := key A.length hlen
    rw [e] at this
    simpa using this
  refine ⟨A.length, f, sol, cost, hlen, ?_⟩
  dsimp only
  rw [← hc]
  refine ⟨g1, g2, hu, g3, ?_⟩
  intro j hj
  have hj' := key j (by omega)
  rw [e, List.getElem?_append_left hj] at hj'
  obtain ⟨q, hq⟩ := h2 _ (List.mem_of_getElem? hj')
  exact (noPlan_of hq).1

/-- **C157**: if the answers of the solver satisfy the constraints, then the applied plan serves at least half of the
demand. -/
theorem C157_half_served (ops : List Op) (O : Outside) (p : OptParams) (adv : Arc → Bool) (t' : Topology)
    (hO : ∀ c f, (O.cost (problem (run {} ops) p c)).found = some f →
      (problem (run {} ops) p c).SiteFeasible adv f.vars ∧ (problem (run {} ops) p c).Coverage none f.vars)
    (h : costStep O p (run {} ops) = some (t', none)) :
    ∃ c : ℚ, 1/2 ≤ c ∧ ∃ f sol cost, (O.cost (problem (run {} ops) p c)).found = some f ∧
      (problem (run {} ops) p c).extract f.vars f.flow f.common = .ok (some (sol, cost)) ∧
      updateWithSolution sol (run {} ops) = some (t', none) ∧
      c * totalDemand ⟨run {} ops, p⟩ ≤
        ((Plan.mk (run {} ops) p).demands.map (arriving ⟨run {} ops, p⟩ f.vars.flow)).sum := by
  obtain ⟨hs, -⟩ := costStep_ok h
  obtain ⟨k, f, sol, cost, hk, h1, h2, h3, -, -⟩ := C157_highest_coverage O p _ t' h
  have hk' : (k : ℚ) ≤ 5 := by exact_mod_cast hk
  refine ⟨1 - k / 10, by linarith, f, sol, cost, h1, h2, h3, ?_⟩
  obtain ⟨f1, f2⟩ := hO _ _ h1
  exact C86_coverage_met ops { p with coverage := 1 - k / 10 } adv f.vars hs f1 f2

/-- **C158**: if the minimum cost step gives up, no plan came out for any of the six coverages, and nothing was changed. It
reports a time-out exactly if the solver was called for 50 % and timed out there. -/
theorem C158_all_tried (O : Outside) (p : OptParams) (t t' : Topology) (r : Halt)
    (hr : r = .costTimedOut ∨ r = .fewPops ∨ r = .costInfeasible)
    (h : costStep O p t = some (t', some r)) :
    t' = t ∧ (∀ k : Nat, k ≤ 5 → NoPlan O t p (1 - k / 10)) ∧
    (r = .costTimedOut ↔ (problem t p (1/2)).maxThroughput * (1/2) ≤ t.maxPopCapacity p.popCapacity StatusType.reachable ∧
      (O.cost (problem t p (1/2))).timedOut = true) ∧
    (r = .fewPops → t.maxPopCapacity p.popCapacity StatusType.reachable <
      (t.demandSites.vals.map fun d => d.demand.getD 0).sum * (1/2)) := by
  have nr : ∀ e, r ≠ .raised e := by rintro e rfl; simp at hr
  have common : ∀ b, costLoop (costTry O t p) coverages false = .ok (none, b) →
      (∀ k : Nat, k ≤ 5 → NoPlan O t p (1 - k / 10)) ∧
      (b = true ↔ (problem t p (1/2)).maxThroughput * (1/2) ≤ t.maxPopCapacity p.popCapacity StatusType.reachable ∧
        (O.cost (problem t p (1/2))).timedOut = true) := by
    intro b hb
    obtain ⟨h1, h2⟩ := costLoop_none hb
    constructor
    · intro k hk
      have hm : (1 - (k : ℚ) / 10) ∈ coverages := by
        interval_cases k <;> decide +kernel
      obtain ⟨q, hq⟩ := h1 _ hm
      exact (noPlan_of hq).1
    · have h5 := h2 (5/10) (by decide +kernel)
      have e : (5/10 : ℚ) = 1/2 := by norm_num
      rw [e] at h5
      rw [(noPlan_of h5).2]
      by_cases c : (problem t p (1/2)).minCostExit = true
      · rw [if_pos c]
        have c' := of_decide_eq_true c
        exact ⟨fun q => absurd q (by simp), fun q => absurd q.1 (not_le.2 c')⟩
      · rw [if_neg c]
        exact ⟨fun q => ⟨not_lt.1 fun w => c (decide_eq_true w), q⟩, fun q => q.2⟩
  unfold costStep at h
  split at h
  · simp only [Option.some.injEq, Prod.mk.injEq] at h
    exact absurd h.2.symm (nr _)
  · split at h
    · simp only [Option.some.injEq, Prod.mk.injEq] at h
      exact absurd h.2.symm (nr _)
    · rw [Option.map_eq_some_iff] at h
      obtain ⟨⟨a, e⟩, -, hb⟩ := h
      cases e with
      | none => simp [Out.phase] at hb
      | some e =>
        simp only [Out.phase, Prod.mk.injEq, Option.map_some, Option.some.injEq] at hb
        exact absurd hb.2.symm (nr _)
    · rename_i hb
      cases h
      obtain ⟨c1, c2⟩ := common _ hb
      exact ⟨rfl, c1, by simpa using c2, by simp⟩
    · rename_i hb
      obtain ⟨c1, c2⟩ := common _ hb
      have c2' := c2.not.1 (by simp)
      split at h
      · rename_i hlt
        cases h
        exact ⟨rfl, c1, ⟨by simp, fun q => absurd q c2'⟩, fun _ => hlt⟩
      · cases h
        exact ⟨rfl, c1, ⟨by simp, fun q => absurd q c2'⟩, by simp⟩

namespace Plan

/-- The constraints other than the coverage do not depend on the coverage. -/
theorem SiteFeasible.coverage {t : Topology} {p : OptParams} {adv : Arc → Bool} {x : Vars} {c c' : ℚ}
    (h : (problem t p c).SiteFeasible adv x) : (problem t p c').SiteFeasible adv x :=
  ⟨⟨h.bounds.site, h.bounds.flow, h.bounds.tdm, h.bounds.odd, h.bounds.shortage⟩, h.sectorSite, h.colocated, h.tdmFlow, h.tdmSector, h.popLoad, h.flowBalance, h.flowSite, h.adversarial, h.tdmPolarity,
    h.decided, h.activePolarity, h.inactiveFlow⟩

end Plan

/-- **C158**: "infeasible" is right: if the solver, when it does not time out, finds a plan with flow whenever the
constraints and a coverage of 50 % can be met, and the POPs can carry half of the demand, then no assignment meets the
constraints and a coverage of 50 % or more. -/
theorem C158_infeasible (O : Outside) (p : OptParams) (t t' : Topology) (adv : Arc → Bool)
    (hO : (O.cost (problem t p (1/2))).timedOut = false →
      (∃ x, (problem t p (1/2)).SiteFeasible adv x ∧ (problem t p (1/2)).Coverage none x) →
      ∃ f, (O.cost (problem t p (1/2))).found = some f ∧ (problem t p (1/2)).extract f.vars f.flow f.common ≠ .ok none)
    (hcap : (Plan.mk t p).maxThroughput / 2 ≤ t.maxPopCapacity p.popCapacity StatusType.reachable)
    (h : costStep O p t = some (t', some .costInfeasible)) (c : ℚ) (hc : 1/2 ≤ c) :
    ¬ ∃ x, (problem t p c).SiteFeasible adv x ∧ (problem t p c).Coverage none x := by
  rintro ⟨x, fx, cx⟩
  obtain ⟨-, h1, h2, -⟩ := C158_all_tried O p t t' _ (.inr (.inr rfl)) h
  have h5 := h1 5 (le_refl _)
  have e5 : (1 - ((5 : ℕ) : ℚ) / 10) = 1/2 := by norm_num
  rw [e5] at h5
  have hmax : (problem t p (1/2)).maxThroughput = (Plan.mk t p).maxThroughput := rfl
  have hto : (O.cost (problem t p (1/2))).timedOut = false := by
    cases q : (O.cost (problem t p (1/2))).timedOut with
    | false => rfl
    | true => exact absurd (h2.2 ⟨by rw [hmax]; linarith, q⟩) (by simp)
  have half : (problem t p (1/2)).Coverage none x := by
    intro hne
    have := cx hne
    dsimp only at this ⊢
    have hD : 0 ≤ ((problem t p c).demands.map (problem t p c).demandAt).sum := by
      refine List.sum_nonneg ?_
      intro q hq
      obtain ⟨l, hl, rfl⟩ := List.mem_map.1 hq
      obtain ⟨a, b⟩ := fx.bounds.shortage l hl
      linarith
    change _ ≤ (1 - c) * _ at this
    change _ ≤ (1 - (1/2 : ℚ)) * _
    refine this.trans (mul_le_mul_of_nonneg_right (by linarith) hD)
  obtain ⟨f, hf, hx⟩ := hO hto ⟨x, fx.coverage, half⟩
  rcases h5 with h5 | h5 | ⟨g, hg, hgx⟩
  · rw [hmax] at h5
    linarith
  · rw [h5] at hf; cases hf
  · rw [hg] at hf; cases hf; exact hx hgx

/-- **C159 (partial)**: "insufficient number of POPs" is right if no oversubscription is assumed and every demand site
stands for one site, and the conditions of C50 hold: no assignment covers half of the demand. Missing: the other cases,
see the violations below. -/
theorem C159_few_pops_partial (ops : List Op) (O : Outside) (p : OptParams) (adv : Arc → Bool) (t' : Topology)
    (h0 : 0 ≤ p.popCapacity) (hov : p.oversubscription = 1)
    (hnum : ∀ d ∈ (run {} ops).demandSites.vals, d.numSites = 1)
    (hc : ∀ l ∈ (run {} ops).links.vals, 0 ≤ l.capacity)
    (hdem : ∀ d ∈ (run {} ops).demandSites.vals, ∀ s ∈ d.connected, ∀ y,
      (run {} ops).sites.get? s = some y → y.siteType ≠ .pop)
    (hsec : ∀ l ∈ (run {} ops).links.vals, ∀ y, (run {} ops).sites.get? l.tx = some y →
      y.siteType = .pop → SectorsInPlace (run {} ops) l)
    (hpop : p.alwaysActivePops = true → ∀ s y, (run {} ops).sites.get? s = some y →
      y.siteType = .pop → y.status ≠ .unavailable ∧ y.status ≠ .unreachable)
    (h : costStep O p (run {} ops) = some (t', some .fewPops)) :
    ¬ ∃ x, (problem (run {} ops) p (1/2)).SiteFeasible adv x ∧ (problem (run {} ops) p (1/2)).Coverage none x := by
  have hs : (Plan.mk (run {} ops) p).setupErr = none := by
    unfold costStep at h
    split at h
    · simp at h
    · assumption
  obtain ⟨-, -, -, h3⟩ := C158_all_tried O p _ t' _ (.inr (.inl rfl)) h
  have h3 := h3 rfl
  refine C50_early_exit_partial ops { p with coverage := 1/2 } adv hs h0 hc hdem hsec hpop ?_
  have inv : (run {} ops).Inv := Inv.empty.run ops
  have e : (problem (run {} ops) p (1/2)).maxThroughput = ((run {} ops).demandSites.vals.map fun d => d.demand.getD 0).sum := by
    have := Plan.demands_sum (P := problem (run {} ops) p (1/2)) inv.nd_demand
    change (problem (run {} ops) p (1/2)).maxThroughput = _ at this
    rw [this]
    unfold totalDemand problem
    dsimp only
    congr 1
    refine List.map_congr_left fun d hd => ?_
    rw [hnum d hd, hov]
    simp
  unfold Plan.minCostExit
  change decide (_ < (problem (run {} ops) p (1/2)).maxThroughput * (1/2)) = true
  rw [e]
  simpa using h3

namespace Topology

theorem Still.connected {t t' : Topology} (h : Still t t') {i : SiteId} (c : ConnectedActive t i) : ConnectedActive t' i := by
  obtain ⟨n, hn⟩ := c
  refine ⟨n, ?_⟩
  induction hn with
  | pop h1 h2 h3 => exact .pop ((h.site _).trans h1) h2 h3
  | @hop a b n l y _ hl hf hy hy' ih =>
    have q := h.link ⟨a, b⟩
    rw [hl] at q
    generalize hq : t'.links.get? ⟨a, b⟩ = z at q
    cases q with
    | some q => exact .hop ih hq (by rw [q]; exact hf) ((h.site _).trans hy) hy'

end Topology

/-- **C160**: in the result of a run that succeeds no link is PROPOSED at a CANDIDATE site. -/
theorem C160_no_loose_link (ops : List Op) (O : Outside) (p : RunParams) (t' : Topology)
    (h : optimize O p (run {} ops) = some (t', none)) (i : LinkId) (l : Link)
    (hl : t'.links.get? i = some l) (hp : l.status = .proposed) :
    ∀ s, (t'.sites.get? l.tx = some s ∨ t'.sites.get? l.rx = some s) → s.status ≠ .candidate := by
  obtain ⟨t1, t2, t3, t4, t5, ph⟩ := phases h
  have i0 := Inv.empty.run ops
  obtain ⟨-, -, -, v4, v5⟩ := ph.via i0
  obtain ⟨sol, hu⟩ := interf_applied ph.interf
  obtain ⟨-, hd⟩ := update_split hu
  obtain ⟨o2, ho⟩ := (v4.trans (via_apply (b := ⟨run {} ops, false, false, p.extraPops ≠ 0⟩) sol (v4.inv i0))).built ops rfl
  rw [ho] at hd
  have st := readjust_still (v5.inv i0) (O.geo t5) (O.best t5)
  rw [ph.adjust] at st
  dsimp only at st
  have q := st.link i
  rw [hl] at q
  generalize hz : t5.links.get? i = z at q
  cases q with
  | @some z _ q =>
    intro s hs
    rw [q] at hs hp
    dsimp only at hs hp
    rw [st.site, st.site] at hs
    exact C13_no_link_at_withdrawn_site o2 t5 hd i z hz hp s hs

/-- **C160 (partial)**: in the result of a run that succeeds every PROPOSED site that is a POP or had a sector in the input
is connected to an active POP over active links. Missing: sites without sectors, which the clean-up does not look at
(`C13_no_sector_violation`). -/
theorem C160_connected_partial (ops : List Op) (O : Outside) (p : RunParams) (t' : Topology)
    (h : optimize O p (run {} ops) = some (t', none)) (i : SiteId) (s : Site)
    (hs : t'.sites.get? i = some s) (hp : s.status = .proposed)
    (hsec : s.siteType = .pop ∨ ∃ k x, (run {} ops).sectors.get? k = some x ∧ x.site = i) :
    ConnectedActive t' i := by
  obtain ⟨t1, t2, t3, t4, t5, ph⟩ := phases h
  have i0 := Inv.empty.run ops
  obtain ⟨-, -, -, v4, v5⟩ := ph.via i0
  rcases hsec with hpop | ⟨k, x, hk, rfl⟩
  · exact ⟨0, .pop hs hpop (by simp [hp])⟩
  obtain ⟨sol, hu⟩ := interf_applied ph.interf
  obtain ⟨-, hd⟩ := update_split hu
  obtain ⟨o2, ho⟩ := (v4.trans (via_apply (b := ⟨run {} ops, false, false, p.extraPops ≠ 0⟩) sol (v4.inv i0))).built ops rfl
  rw [ho] at hd
  have st := readjust_still (v5.inv i0) (O.geo t5) (O.best t5)
  rw [ph.adjust] at st
  dsimp only at st
  obtain ⟨x', hx', e⟩ := v5.sectors rfl i0 k x hk
  exact st.connected (C13_withdrawn_partial o2 t5 hd x.site s ((st.site _).symm.trans hs) hp ⟨k, x', hx', e⟩)

/-- **C160**: the second step, coverage or redundancy, does not end a run because it finds no plan: if it ends it, then with
an exception raised while computing; and without an answer the plan of the cost step stays as it is. -/
theorem C160_second_optional (O : Outside) (p : RunParams) (t t' : Topology) (r : Option Halt)
    (h : secondStep O p t = some (t', r)) :
    (∀ q, r = some q → ∃ e, q = .raised e) ∧
    ((∀ P adv, (O.coverage P adv).found = none) → (∀ P a b, (O.redundancy P a b).found = none) → t' = t) := by
  have upd : ∀ sol, (updateWithSolution sol t).map Out.phase = some (t', r) → ∀ q, r = some q → ∃ e, q = .raised e := by
    intro sol hq q hr
    rw [Option.map_eq_some_iff] at hq
    obtain ⟨⟨a, e⟩, -, hb⟩ := hq
    simp only [Out.phase, Prod.mk.injEq] at hb
    rw [hr, Option.map_eq_some_iff] at hb
    obtain ⟨-, e, -, rfl⟩ := hb
    exact ⟨e, rfl⟩
  have bad : ∀ e, some (t, some (Halt.raised e)) = some (t', r) →
      (∀ q, r = some q → ∃ e, q = .raised e) ∧ t' = t := by
    intro e h
    cases h
    exact ⟨fun q hq => ⟨e, by simpa using hq.symm⟩, rfl⟩
  have good : some (t, none) = some (t', r) → (∀ q, r = some q → ∃ e, q = .raised e) ∧ t' = t := by
    intro h
    cases h
    exact ⟨by simp, rfl⟩
  unfold secondStep at h
  split at h
  · unfold coverageStep at h
    split at h
    · exact ⟨(good h).1, fun _ _ => (good h).2⟩
    · split at h
      · exact ⟨(bad _ h).1, fun _ _ => (bad _ h).2⟩
      · dsimp only at h
        split at h
        · exact ⟨(bad _ h).1, fun _ _ => (bad _ h).2⟩
        · split at h
          · exact ⟨(good h).1, fun _ _ => (good h).2⟩
          · split at h
            · exact ⟨(good h).1, fun _ _ => (good h).2⟩
            · rename_i hf
              refine ⟨?_, fun c _ => by rw [c] at hf; cases hf⟩
              split at h
              · exact (bad _ h).1
              · exact (good h).1
              · exact upd _ h
  · unfold redundancyStep at h
    split at h
    · exact ⟨(good h).1, fun _ _ => (good h).2⟩
    · dsimp only at h
      split at h
      · exact ⟨(bad _ h).1, fun _ _ => (bad _ h).2⟩
      · split at h
        · exact ⟨(bad _ h).1, fun _ _ => (bad _ h).2⟩
        · split at h
          · exact ⟨(good h).1, fun _ _ => (good h).2⟩
          · rename_i hf
            exact ⟨upd _ h, fun _ c => by rw [c] at hf; cases hf⟩

end Verif
