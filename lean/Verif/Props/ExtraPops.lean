import Verif.Props.PopCopy
import Verif.Props.Pipeline4
import Verif.Props.Pipeline3

/-! # C178: the extra POPs of a planning run -/

namespace Verif
open Topology Spec

/-! ## Specification -/

/-- `k` is a site of the result that was not in the input. -/
def Spec.NewSite (t t' : Topology) (k : SiteId) : Prop := t.sites.get? k = none ∧ ∃ x, t'.sites.get? k = some x

/-- `k` is a POP of `t'` at the place and with the device of the site `i` of `t`. -/
def Spec.PopAt (t t' : Topology) (i k : SiteId) : Prop :=
  ∃ s x, t.sites.get? i = some s ∧ t'.sites.get? k = some x ∧ x.siteType = .pop ∧ x.lat = s.lat ∧ x.lon = s.lon ∧
    x.alt = s.alt ∧ x.device = s.device ∧ x.building = s.building

/-! ## Lemmas -/

namespace ExtraPops

theorem sort_built (ops : List Op) : ∃ ops', (run {} ops).sort = run {} ops' :=
  Via.built (b := ⟨run {} ops, false, false, False⟩) (Via.step .sort trivial) ops rfl

theorem pops_some {O : Outside} {p : RunParams} {t t' : Topology} (h0 : p.extraPops ≠ 0)
    (h : popStep O p t = some (t', none)) :
    t' = t ∨ ∃ P f, Plan.popProposal t p.toOptParams = some (.ok P) ∧ (O.pops P).found = some f ∧
      t.addPopsOnDns O.pid (fun s => (P.extracted f.vars f.flow).site s == 1) = (t', none) := by
  unfold popStep at h
  rw [if_neg h0, Option.map_eq_some_iff] at h
  obtain ⟨r, hr, h⟩ := h
  cases r with
  | error e => simp at h
  | ok P =>
    dsimp only at h
    cases hf : (O.pops P).found with
    | none => rw [hf] at h; simp only [Prod.mk.injEq] at h; exact .inl h.1.symm
    | some f =>
      rw [hf] at h
      dsimp only at h
      cases he : P.extract f.vars f.flow f.common with
      | error e => rw [he] at h; simp at h
      | ok o =>
        rw [he] at h
        cases o with
        | none => simp only [Prod.mk.injEq] at h; exact .inl h.1.symm
        | some d =>
          obtain ⟨sol, c⟩ := d
          dsimp only at h
          obtain ⟨rfl, -⟩ := Plan.extract_ok he
          refine .inr ⟨P, f, hr, hf, ?_⟩
          simp only [Out.phase, Prod.mk.injEq, Option.map_eq_none_iff] at h
          exact Prod.ext h.1 h.2

theorem connectLoop_same {m : Dict SiteId (List SiteId)} (out : List SiteId) : ∀ {todo : List SiteId},
    (∀ i ∈ todo, m.get? i = none) → connectLoop m out todo = out
  | [], _ => by unfold connectLoop; rfl
  | s :: rest, h => by
    unfold connectLoop
    simp only [h s (List.mem_cons_self ..), Option.getD_none, List.filter_nil, List.dedup_nil, List.append_nil]
    exact connectLoop_same out fun i hi => h i (List.mem_cons_of_mem _ hi)

theorem connectDemand_same {t : Topology} {m : Dict SiteId (List SiteId)}
    (h : ∀ e ∈ t.demandSites, ∀ i ∈ e.2.connected, m.get? i = none) : t.connectDemand m = t := by
  unfold connectDemand
  have : t.demandSites.map (fun p => (p.1, { p.2 with connected := connectLoop m p.2.connected p.2.connected })) =
      t.demandSites := by
    conv_rhs => rw [← List.map_id t.demandSites]
    refine List.map_congr_left fun e he => ?_
    rw [connectLoop_same _ (h e he)]
    rfl
  exact congrArg (fun d => { t with demandSites := d }) this

theorem later_kin {O : Outside} {p : RunParams} {t0 t1 t2 t3 t4 t5 t6 : Topology} (i0 : Inv t0)
    (h : Phases O p t0 t1 t2 t3 t4 t5 t6) : Kin t1 t5 := by
  obtain ⟨v1, v2, v3, v4, v5⟩ := h.via i0
  obtain ⟨-, sol, b, -, u3⟩ := costStep_ok h.cost
  obtain ⟨sol5, u5⟩ := interf_applied h.interf
  have k3 := (kin_mark (v1.inv i0) h.mark).trans (kin_update (v2.inv i0) u3)
  refine Kin.trans ?_ (kin_update (v4.inv i0) u5)
  rcases second_applied h.second with rfl | ⟨sol4, u4⟩
  · exact k3
  · exact k3.trans (kin_update (v3.inv i0) u4)

/-- Sites of the state after the first step and of the result. -/
theorem later_site {O : Outside} {p : RunParams} {t0 t1 t2 t3 t4 t5 t6 : Topology} (i0 : Inv t0)
    (h : Phases O p t0 t1 t2 t3 t4 t5 t6) (k : SiteId) :
    Option.Rel (fun s s' : Site => s' = { s with status := s'.status, polarity := s'.polarity })
      (t1.sites.get? k) (t6.sites.get? k) := by
  have st := readjust_still ((h.via i0).2.2.2.2.inv i0) (O.geo t5) (O.best t5)
  rw [h.adjust] at st
  rw [st.site k]
  exact (later_kin i0 h).site k

theorem popAt_later {O : Outside} {p : RunParams} {t0 t1 t2 t3 t4 t5 t6 : Topology} (i0 : Inv t0)
    (h : Phases O p t0 t1 t2 t3 t4 t5 t6) {i k : SiteId} (g : PopAt t0 t1 i k) : PopAt t0 t6 i k := by
  obtain ⟨s, x, hs, hx, r⟩ := g
  have := later_site i0 h k
  rw [hx] at this
  generalize hz : t6.sites.get? k = z at *
  cases this with
  | @some _ x' e => exact ⟨s, x', hs, hz, by rw [e]; exact r⟩

theorem new_later {O : Outside} {p : RunParams} {t0 t1 t2 t3 t4 t5 t6 : Topology} (i0 : Inv t0)
    (h : Phases O p t0 t1 t2 t3 t4 t5 t6) (k : SiteId) : NewSite t0 t6 k ↔ NewSite t0 t1 k := by
  unfold NewSite
  have := later_site i0 h k
  generalize t1.sites.get? k = y at *
  generalize t6.sites.get? k = z at *
  cases this <;> simp

end ExtraPops
open ExtraPops

/-- **C178 (partial).** A planning run that succeeds adds at most as many sites as extra POPs are asked for. Each is a POP
at the place, and with the device, of a different DN of the input that is neither UNAVAILABLE nor UNREACHABLE and has no
POP at its place. Assumed are what `C54_proposed_partial` assumes: that the answer of the solver to the problem of the POP
proposal satisfies its constraints, that no two usable POPs of the input are at one place
(`C54_colocated_pops_violation`), and that no DN in use has a POP at its place. -/
theorem C178_extra_pops_partial (ops : List Op) (O : Outside) (p : RunParams) (t' : Topology) (h0 : p.extraPops ≠ 0)
    (hO : ∀ P f, Plan.popProposal (run {} ops).sort p.toOptParams = some (.ok P) → (O.pops P).found = some f →
      P.SiteFeasible (fun _ => false) f.vars ∧ P.PopCount (run {} ops).sort p.extraPops f.vars)
    (hone : ∀ i j, UsablePop (run {} ops) i → UsablePop (run {} ops) j → AtOnePlace (run {} ops) i j → i = j)
    (huse : ∀ i s, (run {} ops).sites.get? i = some s → s.siteType = .dn → HasPop (run {} ops) i →
      s.status ≠ .existing ∧ s.status ≠ .proposed)
    (h : optimize O p (run {} ops) = some (t', none)) :
    ∃ dns : List SiteId, dns.Nodup ∧ dns.length ≤ p.extraPops ∧ (∀ i ∈ dns, FreeDn (run {} ops) i) ∧
      ∃ pop : SiteId → SiteId, (∀ k, NewSite (run {} ops) t' k ↔ k ∈ dns.map pop) ∧
        (dns.map pop).Nodup ∧ ∀ i ∈ dns, PopAt (run {} ops) t' i (pop i) := by
  have i0 := Inv.empty.run ops
  obtain ⟨t1, t2, t3, t4, t5, ph⟩ := phases h
  have e1 := (get?_sort i0).1
  obtain ⟨ops', esort⟩ := sort_built ops
  rcases pops_some h0 ph.pops with e | ⟨P, f, hP, hf, hadd⟩
  · refine ⟨[], List.nodup_nil, Nat.zero_le _, by simp, id, fun k => ?_, by simp, by simp⟩
    rw [new_later i0 ph, e]
    constructor
    · rintro ⟨g, x, hx⟩
      rw [e1, g] at hx; cases hx
    · intro g; cases g
  · obtain ⟨feas, hn⟩ := hO P f hP hf
    rw [esort] at hP hn hadd e1
    have hone' : ∀ i j, UsablePop (run {} ops') i → UsablePop (run {} ops') j →
        AtOnePlace (run {} ops') i j → i = j := by
      intro i j
      unfold UsablePop AtOnePlace
      rw [e1, e1]; exact hone i j
    have huse' : ∀ i s, (run {} ops').sites.get? i = some s → s.siteType = .dn →
        HasPop (run {} ops') i → s.status ≠ .existing ∧ s.status ≠ .proposed := by
      intro i s hs ht hp
      rw [e1] at hs
      refine huse i s hs ht ?_
      unfold HasPop AtOnePlace at hp ⊢
      simpa only [e1] using hp
    obtain ⟨c1, c2, c3, -⟩ := C110_copies_partial _ _ _ _ hadd
    let chosen : SiteId → Bool := fun s => (P.extracted f.vars f.flow).site s == 1
    let dns := (run {} ops).sites.keys.filter fun i => chosen i &&
      ((run {} ops).sites.get? i).any fun s => s.siteType == .dn
    have mem : ∀ i, i ∈ dns ↔ ∃ s, Picked (run {} ops') chosen i s := by
      intro i
      simp only [dns, List.mem_filter, Dict.mem_keys_iff, Bool.and_eq_true, Option.any_eq_true, beq_iff_eq, Picked, e1]
      constructor
      · rintro ⟨-, hc, s, hs, ht⟩; exact ⟨s, hs, hc, ht⟩
      · rintro ⟨s, hs, hc, ht⟩; exact ⟨⟨s, hs⟩, hc, s, hs, ht⟩
    have hnd : dns.Nodup := i0.nd_sites.filter _
    obtain ⟨q1, q2⟩ := C54_proposed_partial ops' p.toOptParams P (fun _ => false) f.vars p.extraPops (Nat.pos_of_ne_zero h0) hP feas hn
      hone' huse' f.flow dns hnd (by
        intro i hi
        obtain ⟨s, hs, hc, ht⟩ := (mem i).1 hi
        refine ⟨⟨s, hs, ht⟩, ?_⟩
        simp only [chosen, beq_iff_eq, Plan.extracted, Plan.ifUsed] at hc
        split at hc
        · exact hc
        · cases hc)
    refine ⟨dns, hnd, q1, fun i hi => ?_, O.pid, fun k => ?_, ?_, fun i hi => ?_⟩
    · have := q2 i hi
      unfold FreeDn HasPop AtOnePlace at this ⊢
      simpa only [e1] using this
    · rw [new_later i0 ph, List.mem_map]
      unfold NewSite
      constructor
      · rintro ⟨g, x, hx⟩
        rcases (c1 k x).1 hx with g' | ⟨i, s, hp, rfl, -⟩
        · rw [e1, g] at g'; cases g'
        · exact ⟨i, (mem i).2 ⟨s, hp⟩, rfl⟩
      · rintro ⟨i, hi, rfl⟩
        obtain ⟨s, hp⟩ := (mem i).1 hi
        refine ⟨by rw [← e1]; exact c2 i s hp, _, (c1 _ _).2 (.inr ⟨i, s, hp, rfl, rfl⟩)⟩
    · refine List.Nodup.map_on ?_ hnd
      intro i hi j hj hij
      obtain ⟨s, hs⟩ := (mem i).1 hi
      obtain ⟨s', hs'⟩ := (mem j).1 hj
      exact c3 i j s s' hs hs' hij
    · obtain ⟨s, hp⟩ := (mem i).1 hi
      refine popAt_later i0 ph ⟨s, _, by rw [← e1]; exact hp.1, (c1 _ _).2 (.inr ⟨i, s, hp, rfl, rfl⟩), rfl, rfl, rfl, rfl,
        rfl, rfl⟩

/-- **C178.** No proposal of the solver is lost: if the run goes on after the first step, every DN of the input that the
solution read off the answer contains has a new POP at its place in the result. -/
theorem C178_all_added (ops : List Op) (O : Outside) (p : RunParams) (t' : Topology) (h0 : p.extraPops ≠ 0)
    (h : optimize O p (run {} ops) = some (t', none)) (P : Plan) (f : Found Vars) (sol : Solution) (cost : ℚ)
    (hP : Plan.popProposal (run {} ops).sort p.toOptParams = some (.ok P)) (hf : (O.pops P).found = some f)
    (hx : P.extract f.vars f.flow f.common = .ok (some (sol, cost)))
    (i : SiteId) (s : Site) (hs : (run {} ops).sites.get? i = some s) (ht : s.siteType = .dn) (hi : sol.site i = 1) :
    ∃ k, NewSite (run {} ops) t' k ∧ PopAt (run {} ops) t' i k := by
  have i0 := Inv.empty.run ops
  obtain ⟨t1, t2, t3, t4, t5, ph⟩ := phases h
  have e1 := (get?_sort i0).1
  obtain ⟨ops', esort⟩ := sort_built ops
  have hadd : (run {} ops).sort.addPopsOnDns O.pid (fun s => sol.site s == 1) = (t1, none) := by
    have := ph.pops
    unfold popStep at this
    rw [if_neg h0, hP] at this
    simp only [Option.map_some, Option.some.injEq] at this
    rw [hf] at this
    dsimp only at this
    rw [hx] at this
    simp only [Out.phase, Prod.mk.injEq, Option.map_eq_none_iff] at this
    exact Prod.ext this.1 this.2
  rw [esort] at hadd e1
  obtain ⟨c1, c2, -⟩ := C110_copies_partial _ _ _ _ hadd
  have hp : Picked (run {} ops') (fun s => sol.site s == 1) i s :=
    ⟨by rw [e1]; exact hs, by simpa using hi, ht⟩
  have hk := (c1 _ _).2 (.inr ⟨i, s, hp, rfl, rfl⟩)
  exact ⟨O.pid i, (new_later i0 ph _).2 ⟨by rw [← e1]; exact c2 i s hp, _, hk⟩,
    popAt_later i0 ph ⟨s, _, hs, hk, rfl, rfl, rfl, rfl, rfl, rfl⟩⟩

/-- The plan with a POP instead of the DN `E`. -/
def popRunVars : Vars where
  site s := if s = "D" ∨ s = "E" then 0 else 1
  sector k _ := if k.site = "D" ∨ k.site = "E" then 0 else 1
  flow e := if e.1 = .site "D" ∨ e.2 = .site "D" ∨ e.1 = .site "E" ∨ e.2 = .site "E" then 0 else 1
  tdm e _ := if e.1 = .site "D" ∨ e.1 = .site "E" then 0 else 1 / 2
  odd _ := 0
  shortage _ := 0

/-- The solver proposes a POP at `E` and then plans with it. -/
def popRunOut : Outside := { runDemoOut with
  pops := fun _ => ⟨some ⟨extraVars ["D"], (extraVars ["D"]).flow, none⟩, false⟩
  pid := fun s => if s = "E" then "PE" else "PX"
  cost := fun _ => ⟨some ⟨popRunVars, popRunVars.flow, none⟩, false⟩
  interference := fun _ _ => ⟨some ⟨⟨popRunVars, popRunVars.flow, fun _ _ => 1, fun _ _ _ => 1, fun _ _ _ => 1⟩,
    popRunVars.flow, none⟩, false⟩ }

def popRunParams : RunParams := { extraParams with extraPops := 1 }

def popRunPlan : Plan :=
  planOr (Plan.popProposal (run {} (extraDemo .candidate [])).sort popRunParams.toOptParams) ⟨{}, extraParams⟩

def popRunChosen (s : SiteId) : Bool := (popRunPlan.extracted (extraVars ["D"]) (extraVars ["D"]).flow).site s == 1

/-- After the first step. -/
def popRunSites := dupSites popRunOut.pid popRunChosen (run {} (extraDemo .candidate [])).sort.sectors.vals
  (run {} (extraDemo .candidate [])).sort [] [] (run {} (extraDemo .candidate [])).sort.sites

def popRunTop : Topology := (dupLinks popRunOut.pid popRunSites.2.2.1 popRunSites.1 none popRunSites.2.1).1

theorem popRun_plan :
    Plan.popProposal (run {} (extraDemo .candidate [])).sort popRunParams.toOptParams = some (.ok popRunPlan) :=
  planOr_eq (by decide +kernel)

theorem popRun_extract : ∃ c, popRunPlan.extract (extraVars ["D"]) (extraVars ["D"]).flow none =
    .ok (some (popRunPlan.extracted (extraVars ["D"]) (extraVars ["D"]).flow, c)) := by
  unfold Plan.extract
  rw [if_neg (by decide +kernel), if_neg (by decide +kernel), if_neg (by decide +kernel)]
  exact ⟨_, rfl⟩

theorem popRun_first : popStep popRunOut popRunParams (run {} (extraDemo .candidate [])).sort = some (popRunTop, none) := by
  obtain ⟨c, hc⟩ := popRun_extract
  have h1 : addPopsOnDns popRunOut.pid popRunChosen (run {} (extraDemo .candidate [])).sort = (popRunTop, none) := by
    have e1 : dupSites popRunOut.pid popRunChosen (run {} (extraDemo .candidate [])).sort.sectors.vals
      (run {} (extraDemo .candidate [])).sort [] [] (run {} (extraDemo .candidate [])).sort.sites =
      (popRunSites.1, popRunSites.2.1, popRunSites.2.2.1, none) := by
        change popRunSites = _
        decide +kernel
    have e2 : dupLinks popRunOut.pid popRunSites.2.2.1 popRunSites.1 none popRunSites.2.1 = (popRunTop, none) := by
      decide +kernel
    unfold addPopsOnDns
    rw [e1]
    dsimp only
    rw [e2]
    dsimp only
    have e3 : popRunTop.connectDemand (popRunSites.2.1.map fun i => (i, [popRunOut.pid i])) = popRunTop :=
      connectDemand_same (by decide +kernel)
    rw [e3]
  unfold popStep
  rw [if_neg (by decide), popRun_plan]
  simp only [Option.map_some, popRunOut] at h1 hc ⊢
  rw [hc]
  change some (Out.phase (addPopsOnDns popRunOut.pid popRunChosen (run {} (extraDemo .candidate [])).sort)) = _
  rw [show addPopsOnDns popRunOut.pid popRunChosen (run {} (extraDemo .candidate [])).sort = _ from h1]
  rfl

/-- The run from the second step on. -/
def popRunRest : Option Phase :=
  ((popRunTop.markUnreachable popRunParams.maxHops).map Out.phase).bind fun r => r.next fun t =>
  (costStep popRunOut { popRunParams.toOptParams with ignorePolarities := false } t).bind fun r => r.next fun t =>
  (secondStep popRunOut { popRunParams with ignorePolarities := false } t).bind fun r => r.next fun t =>
  (interferenceStep popRunOut { popRunParams.toOptParams with ignorePolarities := false } t).bind fun r => r.next fun t =>
  some (t.readjust (popRunOut.geo t) (popRunOut.best t)).phase

def popRunResult : Topology := (popRunRest.getD ({}, none)).1

/-- The hypotheses of C178: one POP is asked for; the POP `PE` is added and becomes part of the plan. -/
example :
    (∀ P f, Plan.popProposal (run {} (extraDemo .candidate [])).sort popRunParams.toOptParams = some (.ok P) →
      (popRunOut.pops P).found = some f → P.SiteFeasible (fun _ => false) f.vars ∧
        P.PopCount (run {} (extraDemo .candidate [])).sort popRunParams.extraPops f.vars) ∧
    (∀ i j, UsablePop (run {} (extraDemo .candidate [])) i → UsablePop (run {} (extraDemo .candidate [])) j →
      AtOnePlace (run {} (extraDemo .candidate [])) i j → i = j) ∧
    (∀ e ∈ (run {} (extraDemo .candidate [])).sites, e.2.status ≠ .existing ∧ e.2.status ≠ .proposed) ∧
    optimize popRunOut popRunParams (run {} (extraDemo .candidate [])) = some (popRunResult, none) ∧
    NewSite (run {} (extraDemo .candidate [])) popRunResult "PE" ∧
    popRunResult.siteStatus "PE" = some .proposed ∧
    (popRunPlan.extracted (extraVars ["D"]) (extraVars ["D"]).flow).site "E" = 1 := by
  refine ⟨?_, one_pop_of (by decide +kernel), by decide +kernel, ?_,
    ⟨by decide +kernel, (popRunResult.sites.get? "PE").getD { id := "", siteType := .pop, status := .candidate },
      by decide +kernel⟩, by decide +kernel, by decide +kernel⟩
  · intro P f h hf
    rw [popRun_plan] at h
    cases h
    cases hf
    refine ⟨Plan.Check.sound (by decide +kernel), ?_⟩
    unfold Plan.PopCount
    decide +kernel
  · unfold optimize
    rw [popRun_first]
    change popRunRest = _
    decide +kernel

end Verif
