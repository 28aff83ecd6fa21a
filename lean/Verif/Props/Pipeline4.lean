import Verif.Lemmas.Kin
import Verif.Props.Sort
import Verif.Props.Interf4
import Verif.Lemmas.DetourDemo

/-!
# The hop limit, the order of the input and the links of the final plan (C161–C163)
-/

namespace Verif
open Topology
open Spec

namespace Topology

theorem hopPath_congr {t u : Topology} (hs : ∀ i, t.sites.get? i = u.sites.get? i)
    (hl : ∀ i, t.links.get? i = u.links.get? i) {f : StatusType → Bool} {i : SiteId} {n : Nat} (h : HopPath t f i n) :
    HopPath u f i n := by
  induction h with
  | pop h1 h2 h3 => exact .pop ((hs _).symm.trans h1) h2 h3
  | hop _ h2 h3 h4 h5 ih => exact .hop ih ((hl _).symm.trans h2) h3 ((hs _).symm.trans h4) h5

theorem unserved_congr {t u : Topology} (hs : ∀ i, t.sites.get? i = u.sites.get? i)
    (hl : ∀ i, t.links.get? i = u.links.get? i) {limit : Option Nat} {i : SiteId} :
    Unserved t limit i ↔ Unserved u limit i := by
  unfold Unserved
  rw [hs i]
  refine exists_congr fun s => and_congr_right fun _ => and_congr_right fun _ => not_congr (exists_congr fun n => ?_)
  exact and_congr_left fun _ => ⟨hopPath_congr hs hl, hopPath_congr (fun i => (hs i).symm) (fun i => (hl i).symm)⟩

/-- From the marking of what cannot be reached to the end, no status becomes or ceases to be UNREACHABLE. -/
theorem Phases.fixed {O : Outside} {p : RunParams} {t0 t1 t2 t3 t4 t5 t6 : Topology}
    (h : Phases O p t0 t1 t2 t3 t4 t5 t6) : FixedUntouched t2 t5 := by
  obtain ⟨-, sol, b, -, u3⟩ := costStep_ok h.cost
  obtain ⟨sol5, u5⟩ := interf_applied h.interf
  have f3 := C11_fixed_untouched _ _ _ _ u3
  have f5 := C11_fixed_untouched _ _ _ _ u5
  rcases second_applied h.second with rfl | ⟨sol4, u4⟩
  · exact fixedUntouched_trans f3 f5
  · exact fixedUntouched_trans f3 (fixedUntouched_trans (C11_fixed_untouched _ _ _ _ u4) f5)

end Topology

/-! ## C161 -/

/-- **C161.** In the result of a run without extra POPs that succeeds, a site is UNREACHABLE exactly if it was in the input or
if, as a CANDIDATE, it has no usable path to a POP within the maximum number of hops; a link exactly if it was or touches
such a site. In particular no CANDIDATE beyond the limit is PROPOSED. -/
theorem C161_hop_limit (ops : List Op) (O : Outside) (p : RunParams) (t' : Topology) (h0 : p.extraPops = 0)
    (h : optimize O p (run {} ops) = some (t', none)) :
    (∀ i s, (run {} ops).sites.get? i = some s → ∃ s', t'.sites.get? i = some s' ∧
      (s'.status = .unreachable ↔ s.status = .unreachable ∨ Unserved (run {} ops) p.maxHops i)) ∧
    (∀ i l, (run {} ops).links.get? i = some l → ∃ l', t'.links.get? i = some l' ∧
      (l'.status = .unreachable ↔ l.status = .unreachable ∨ Unserved (run {} ops) p.maxHops l.tx ∨
        Unserved (run {} ops) p.maxHops l.rx)) ∧
    (∀ i s s', (run {} ops).sites.get? i = some s → s.status = .candidate → t'.sites.get? i = some s' →
      s'.status = .proposed → ∃ n, HopPath (run {} ops)
        (fun st => st = .candidate ∨ st = .proposed ∨ st = .existing) i n ∧ WithinLimit p.maxHops n) := by
  classical
  have i0 := Inv.empty.run ops
  generalize run {} ops = t0 at *
  obtain ⟨t1, t2, t3, t4, t5, ph⟩ := phases h
  obtain ⟨v1, -, -, -, v5⟩ := ph.via i0
  have e1 := pops_none h0 ph.pops
  subst e1
  obtain ⟨g1, -, g3, -⟩ := get?_sort i0
  obtain ⟨m1, m2, -⟩ := mark_exact (v1.inv i0) p.maxHops t2 ph.mark
  have un : ∀ i, Unserved t0.sort p.maxHops i ↔ Unserved t0 p.maxHops i := fun i => unserved_congr g1 g3
  have fx := ph.fixed
  have st := readjust_still (v5.inv i0) (O.geo t5) (O.best t5)
  rw [ph.adjust] at st
  dsimp only at st
  have site : ∀ i s, t0.sites.get? i = some s → ∃ s', t'.sites.get? i = some s' ∧
      (s'.status = .unreachable ↔ s.status = .unreachable ∨ Unserved t0 p.maxHops i) := by
    intro i s hs
    have h2 := m1 i
    rw [g1, hs, Option.map_some] at h2
    have q := fx.1 i
    rw [h2] at q
    generalize hz : t5.sites.get? i = z at q
    cases q with
    | @some _ s5 q =>
      refine ⟨s5, (st.site i).trans hz, ?_⟩
      have q3 : _ ↔ _ := q.2.2
      rw [← q3, un]
      by_cases c : Unserved t0 p.maxHops i
      · simp [c]
      · simp [c]
  refine ⟨site, ?_, ?_⟩
  · intro i l hl
    have h2 := m2 i
    rw [g3, hl, Option.map_some] at h2
    have q := fx.2.2 i
    rw [h2] at q
    generalize hz : t5.links.get? i = z at q
    cases q with
    | @some _ l5 q =>
      have q' := st.link i
      rw [hz] at q'
      generalize hw : t'.links.get? i = w at q'
      cases q' with
      | @some _ l6 q' =>
        refine ⟨l6, rfl, ?_⟩
        have e6 : l6.status = l5.status := by rw [q']
        have q3 : _ ↔ _ := q.2.2
        rw [e6, ← q3, un, un]
        by_cases c : Unserved t0 p.maxHops l.tx ∨ Unserved t0 p.maxHops l.rx
        · simp [c]
        · simp [c]
  · intro i s s' hs hc hs' hp
    obtain ⟨s2, h2, hu⟩ := site i s hs
    rw [hs'] at h2
    cases h2
    by_contra hno
    have : s'.status = .unreachable := hu.2 (.inr ⟨s, hs, hc, hno⟩)
    rw [hp] at this
    cases this

theorem detourOut_cost (P : Plan) (f : Found Vars) (h : (detourOut.cost P).found = some f) :
    P.SiteFeasible (fun _ => false) f.vars ∧ P.Coverage none f.vars := by
  unfold detourOut at h
  dsimp only at h
  split at h
  · cases h
    rename_i c
    exact ⟨Plan.Check.sound c.1, c.2⟩
  · cases h

theorem detourOut_interf (P : Plan) (I : Interf) (f : Found IVars) (h : (detourOut.interference P I).found = some f) :
    P.InterfFeasible I f.vars ∧ ∀ e ∈ P.arcs, 0 ≤ f.flow e ∧ f.flow e ≤ f.vars.flow e := by
  unfold detourOut at h
  dsimp only at h
  split at h
  · cases h
    rename_i c
    exact ⟨Plan.ICheck.sound c.1, fun e he => ⟨c.2 e he, le_rfl⟩⟩
  · cases h

theorem detour_result : (optimize detourOut detourParams (run {} detourDemo)).map (fun r =>
    (r.2, r.1.siteStatus "C", (r.1.hopsFromPops StatusType.active).map fun d => d.get? "C")) =
    some (none, some .proposed, some (some 2)) := by
  decide +kernel

/-- **C161**: the limit is one on the usable network, not on the plan. With answers of the solver that satisfy all
constraints and a maximum of one hop, a run without extra POPs ends with a CN, a CANDIDATE at first, that is PROPOSED and
whose shortest path to a POP over active links has two hops. -/
theorem C161_plan_longer_violation : ∃ (ops : List Op) (O : Outside) (p : RunParams) (t' : Topology) (s s' : Site),
    (∀ P f, (O.cost P).found = some f → P.SiteFeasible (fun _ => false) f.vars ∧ P.Coverage none f.vars) ∧
    (∀ P I f, (O.interference P I).found = some f → P.InterfFeasible I f.vars) ∧
    p.extraPops = 0 ∧ p.maxHops = some 1 ∧ optimize O p (run {} ops) = some (t', none) ∧
    (run {} ops).sites.get? "C" = some s ∧ s.status = .candidate ∧ t'.sites.get? "C" = some s' ∧ s'.status = .proposed ∧
    HopPath t' (fun st => st = .proposed ∨ st = .existing) "C" 2 ∧
    ∀ n, HopPath t' (fun st => st = .proposed ∨ st = .existing) "C" n → 2 ≤ n := by
  have res := detour_result
  rw [Option.map_eq_some_iff] at res
  obtain ⟨⟨t', r⟩, hr, e⟩ := res
  simp only [Prod.mk.injEq] at e
  obtain ⟨rfl, e2, e3⟩ := e
  have inv : Topology.Inv t' := by
    obtain ⟨o, ho⟩ := C156_result_built detourDemo _ _ _ _ hr
    rw [ho]
    exact Inv.empty.run o
  obtain ⟨hc, hh, hspec⟩ := hops_spec inv StatusType.active
  rw [hh] at e3
  simp only [Option.map_some, Option.some.injEq] at e3
  have h2 := (hspec "C" 2).1 e3
  unfold siteStatus at e2
  rw [Option.map_eq_some_iff] at e2
  obtain ⟨s', hs', es'⟩ := e2
  refine ⟨detourDemo, detourOut, detourParams, t', _, s', detourOut_cost, fun P I f h => (detourOut_interf P I f h).1, rfl, rfl,
    hr, (by decide +kernel : (run {} detourDemo).sites.get? "C" = some
      { id := "C", siteType := .cn, status := .candidate, lat := 2, device := { nodeCapex := 5 } }), rfl, hs', es', ?_, ?_⟩
  · rw [← active_eq]; exact h2.1
  · rw [← active_eq]; exact h2.2

/-! ## C162 -/

/-- **C162 (partial).** Two topologies with the same contents are planned alike, in whatever order sites, sectors, links and
demand sites were added to them: what is asked of the solver, and hence the result, is the same, if the connectivity
tables are. Missing: links added in another order, which `sort` leaves in another order in the connectivity tables. -/
theorem C162_order_partial (t u : Topology) (ht : Consistent t) (hu : Consistent u) (hh : HexIds t)
    (hs : ∀ i, t.sites.get? i = u.sites.get? i)
    (hd : ∀ i, t.demandSites.get? i = u.demandSites.get? i)
    (hsec : ∀ i, t.sectors.get? i = u.sectors.get? i)
    (hl : ∀ i, t.links.get? i = u.links.get? i)
    (hx : t.siteSectors = u.siteSectors) (hc : t.conn = u.conn) (hr : t.connRev = u.connRev)
    (O : Outside) (p : RunParams) : optimize O p t = optimize O p u := by
  obtain ⟨h1, h2, h3, h4⟩ := C05_sort_deterministic t u ht hu hh hs hd hsec hl
  have : t.sort = u.sort := by
    have e : ∀ w : Topology, w.sort = ⟨w.sort.sites, w.sort.demandSites, w.sort.sectors, w.sort.links, w.siteSectors, w.conn,
      w.connRev⟩ := fun _ => rfl
    rw [e t, e u, h1, h2, h3, h4, hx, hc, hr]
  unfold optimize
  rw [this]

/-- The sites of the demo network in another order. -/
def reordered : List Op := (planDemo.take 4).reverse ++ planDemo.drop 4

example : (run {} reordered).sites.keys = ["C", "E", "D", "P"] ∧ (run {} planDemo).sites.keys = ["P", "D", "E", "C"] ∧
    ∀ O p, optimize O p (run {} planDemo) = optimize O p (run {} reordered) := by
  have c1 : Consistent (run {} planDemo) := C01_consistent _
  have c2 : Consistent (run {} reordered) := C01_consistent _
  refine ⟨by decide +kernel, by decide +kernel, fun O p => C162_order_partial _ _ c1 c2 ?_ ?_ ?_ ?_ ?_ (by decide +kernel)
    (by decide +kernel) (by decide +kernel) O p⟩
  · unfold HexIds NoHyphen; decide +kernel
  · exact fun i => get?_of_perm c1.unique.1 (by decide +kernel) i
  · exact fun i => by rw [show (run {} planDemo).demandSites = (run {} reordered).demandSites by decide +kernel]
  · exact fun i => by rw [show (run {} planDemo).sectors = (run {} reordered).sectors by decide +kernel]
  · exact fun i => by rw [show (run {} planDemo).links = (run {} reordered).links by decide +kernel]

/-! ## C163 -/

namespace Topology

theorem mem_vals_iff {κ ν : Type} [DecidableEq κ] {d : Dict κ ν} (h : d.NodupKeys) (v : ν) :
    v ∈ d.vals ↔ ∃ k, d.get? k = some v := by
  unfold Dict.vals
  simp only [List.mem_map, Prod.exists, exists_eq_right]
  exact exists_congr fun k => Dict.mem_iff_get? h k v

theorem Kin.typeAt {t t' : Topology} (k : Kin t t') {p q : OptParams} (s : SiteId) :
    Spec.typeAt ⟨t', q⟩ s = Spec.typeAt ⟨t, p⟩ s := by
  unfold Spec.typeAt
  dsimp only
  have rs := k.site s
  generalize t.sites.get? s = a at *
  generalize t'.sites.get? s = b at *
  cases rs with
  | none => rfl
  | some rs => simp only [Option.map_some]; rw [rs]

theorem Kin.link_before {t t' : Topology} (k : Kin t t') (i : Inv t) (i' : Inv t') {l : Link} (hl : l ∈ t'.links.vals) :
    ∃ l0 ∈ t.links.vals, l = { l0 with status := l.status } := by
  obtain ⟨a, ha⟩ := (mem_vals_iff i'.nd_links _).1 hl
  have r := k.link a
  rw [ha] at r
  generalize hz : t.links.get? a = z at r
  cases r with
  | @some l0 _ r => exact ⟨l0, (mem_vals_iff i.nd_links _).2 ⟨a, hz⟩, r⟩

theorem Kin.senders {t t' : Topology} (k : Kin t t') (i : Inv t) (i' : Inv t') {p q : OptParams}
    (h : SendersDist ⟨t, p⟩) : SendersDist ⟨t', q⟩ := by
  intro l hl
  obtain ⟨l0, h0, e⟩ := k.link_before i i' hl
  rw [k.typeAt (p := p), show l.tx = l0.tx by rw [e]]
  exact h l0 h0

theorem Kin.known {t t' : Topology} (k : Kin t t') (i : Inv t) (i' : Inv t') {p q : OptParams}
    (h : SectorsKnown ⟨t, p⟩) : SectorsKnown ⟨t', q⟩ := by
  have sec : ∀ c d, t.sectors.get? c = some d → ∃ d', t'.sectors.get? c = some d' ∧ d'.site = d.site ∧ d'.typ = d.typ := by
    intro c d hd
    obtain ⟨d', hd'⟩ := (k.sector c).2 ⟨d, hd⟩
    have e := (i.sector_id _ _ hd).trans (i'.sector_id _ _ hd').symm
    simp only [Sector.id, SectorId.mk.injEq] at e
    exact ⟨d', hd', e.1.symm, e.2.2.2.symm⟩
  refine ⟨?_, ?_⟩
  · intro l hl k1 k2 hk
    obtain ⟨l0, h0, e⟩ := k.link_before i i' hl
    obtain ⟨⟨d1, a1, b1⟩, d2, a2, b2⟩ := h.ends l0 h0 k1 k2 (by rw [e] at hk; exact hk)
    obtain ⟨d1', a1', b1', -⟩ := sec _ _ a1
    obtain ⟨d2', a2', b2', -⟩ := sec _ _ a2
    rw [show l.tx = l0.tx by rw [e], show l.rx = l0.rx by rw [e]]
    exact ⟨⟨d1', a1', b1'.trans b1⟩, d2', a2', b2'.trans b2⟩
  · intro c d' hd'
    obtain ⟨d, hd⟩ := (k.sector c).1 ⟨d', hd'⟩
    obtain ⟨d2, hd2, e1, e2⟩ := sec _ _ hd
    dsimp only at hd'
    rw [hd'] at hd2
    cases hd2
    obtain ⟨x, hx, ht⟩ := h.typed c d hd
    have rs := k.site d.site
    dsimp only at hx
    rw [hx] at rs
    dsimp only
    rw [e1, e2]
    generalize t'.sites.get? d.site = z at *
    cases rs with
    | @some _ x' rs => exact ⟨x', rfl, by rw [rs]; exact ht⟩

/-- Up to the interference phase. -/
theorem Phases.kin {O : Outside} {p : RunParams} {t0 t1 t2 t3 t4 t5 t6 : Topology} (i0 : Inv t0) (h0 : p.extraPops = 0)
    (h : Phases O p t0 t1 t2 t3 t4 t5 t6) : Kin t0 t4 ∧ Kin t4 t5 := by
  obtain ⟨v1, v2, v3, v4, v5⟩ := h.via i0
  have e1 := pops_none h0 h.pops
  subst e1
  obtain ⟨-, sol, b, -, u3⟩ := costStep_ok h.cost
  obtain ⟨sol5, u5⟩ := interf_applied h.interf
  have k3 := ((kin_sort i0).trans (kin_mark (v1.inv i0) h.mark)).trans (kin_update (v2.inv i0) u3)
  refine ⟨?_, kin_update (v4.inv i0) u5⟩
  rcases second_applied h.second with rfl | ⟨sol4, u4⟩
  · exact k3
  · exact k3.trans (kin_update (v3.inv i0) u4)

end Topology

/-- **C163 (partial).** The links of the final plan fit together, if the answer of the solver to the interference problem
satisfies its constraints. In the result of a run without extra POPs that succeeds, a PROPOSED radio link has capacity and
joins two active sites, of opposite polarity unless the receiver is a CN; and its reverse, if there is one with capacity
and sectors, is active as well. Missing: runs with extra POPs; wired links (`C95_violation`). -/
theorem C163_final_links_partial (ops : List Op) (O : Outside) (p : RunParams) (t' : Topology) (h0 : p.extraPops = 0)
    (known : SectorsKnown ⟨run {} ops, p.toOptParams⟩) (send : SendersDist ⟨run {} ops, p.toOptParams⟩)
    (hch : ∀ t I, O.interf t = .ok I → 0 < I.channels)
    (hO : ∀ P I f, (O.interference P I).found = some f → P.InterfFeasible I f.vars ∧
      ∀ e ∈ P.arcs, 0 ≤ f.flow e ∧ f.flow e ≤ f.vars.flow e)
    (h : optimize O p (run {} ops) = some (t', none)) :
    ∀ i l, t'.links.get? i = some l → l.status = .proposed → l.isWireless = true →
      0 < l.capacity ∧
      ∃ a b, t'.sites.get? l.tx = some a ∧ t'.sites.get? l.rx = some b ∧
        (a.status = .proposed ∨ a.status = .existing) ∧ (b.status = .proposed ∨ b.status = .existing) ∧
        (b.siteType ≠ .cn → (a.polarity = .odd ∧ b.polarity = .even) ∨ (a.polarity = .even ∧ b.polarity = .odd)) ∧
        ∀ r0, (run {} ops).links.get? ⟨l.rx, l.tx⟩ = some r0 → Radio r0 →
          ∃ r, t'.links.get? ⟨l.rx, l.tx⟩ = some r ∧ (r.status = .proposed ∨ r.status = .existing) := by
  have i0 := Inv.empty.run ops
  obtain ⟨t1, t2, t3, t4, t5, ph⟩ := phases h
  obtain ⟨-, -, -, v4, v5⟩ := ph.via i0
  obtain ⟨k4, k5⟩ := ph.kin i0 h0
  have i4 := v4.inv i0
  have i5 := v5.inv i0
  obtain ⟨ops4, e4⟩ := v4.built ops rfl
  obtain ⟨I, f, sol, cost, hI, hf, hex, hu⟩ := interf_found ph.interf
  obtain ⟨feas, hflow⟩ := hO _ _ _ hf
  have known4 := k4.known (q := { p.toOptParams with ignorePolarities := false }) i0 i4 known
  have send4 := k4.senders (q := { p.toOptParams with ignorePolarities := false }) i0 i4 send
  have st := readjust_still i5 (O.geo t5) (O.best t5)
  rw [ph.adjust] at st
  dsimp only at st
  clear ph hf h
  generalize run {} ops = t0 at *
  subst e4
  have cons := C95_consistent_partial ops4 _ I f.vars f.flow f.common sol cost feas known4 send4 (hch _ _ hI) hflow hex
  obtain ⟨c1, -, -, c4, c5⟩ := cons
  obtain ⟨ha, hd⟩ := update_split hu
  have ia : Inv (applySolution sol (run {} ops4)).1 := Via.inv (b := ⟨run {} ops4, false, false, False⟩)
    (via_apply (hb := ⟨rfl⟩) sol i4) i4
  obtain ⟨a1, a2, a3, -⟩ := C12_proposed_iff_decided sol _ _ ha
  obtain ⟨-, r2, r3, -, -, r6⟩ := removeDisconnected_spec ia hd
  generalize (applySolution sol (run {} ops4)).1 = ta at *
  generalize run {} ops4 = t4 at *
  have act : ∀ x : StatusType, x.active = true → x = .proposed ∨ x = .existing := by
    intro x; cases x <;> simp [StatusType.active]
  have site : ∀ s, sol.site s = 1 → ∃ x4 x5, t4.sites.get? s = some x4 ∧ t5.sites.get? s = some x5 ∧
      x5.siteType = x4.siteType ∧ x5.polarity = afterPolarity (sol.odd s) (sol.even s) ∧
      (x5.status = .proposed ∨ x5.status = .existing ∨ x5.status = .candidate) := by
    intro s hs
    obtain ⟨⟨x, hx, hax, -⟩, -⟩ := c4 s hs
    have hxa := a1 s
    dsimp only at hx
    rw [hx, Option.map_some] at hxa
    obtain ⟨x5, h5, d1, d2⟩ := r2 s _ hxa
    refine ⟨x, x5, hx, h5, ?_⟩
    have hst : afterDecision x.status (sol.site s) = .proposed ∨ afterDecision x.status (sol.site s) = .existing := by
      rcases act _ hax with e | e <;> simp [afterDecision, e, hs]
    by_cases c : (afterDecision x.status (sol.site s) = .proposed ∨ afterDecision x.status (sol.site s) = .candidate) ∧
        ¬ ConnectedActive ta s ∧ ∃ k y, ta.sectors.get? k = some y ∧ y.site = s
    · rw [d1 c.1 c.2.1 c.2.2]
      exact ⟨rfl, rfl, .inr (.inr rfl)⟩
    · rw [d2 c]
      refine ⟨rfl, rfl, ?_⟩
      rcases hst with e | e
      · exact .inl e
      · exact .inr (.inl e)
  intro i l hl hp hw
  have q := st.link i
  rw [hl] at q
  generalize h5 : t5.links.get? i = z at q
  cases q with
  | @some l5 _ q =>
  have ep : l5.status = .proposed := by rw [q] at hp; exact hp
  rw [show l.isWireless = l5.isWireless by rw [q]] at hw
  rw [show l.capacity = l5.capacity by rw [q], show l.tx = l5.tx by rw [q], show l.rx = l5.rx by rw [q]]
  have h3 := r3 i
  rw [h5] at h3
  generalize hza : ta.links.get? i = za at h3
  cases za with
  | none => simp at h3
  | some la =>
  simp only [Option.map_some, Option.some.injEq] at h3
  split at h3
  · rw [h3] at ep; simp at ep
  rename_i hn
  subst h3
  have hn' : ¬ (t5.siteStatus l5.tx = some .candidate ∨ t5.siteStatus l5.rx = some .candidate) := fun c => hn ⟨ep, c⟩
  have h4 := a3 i
  rw [hza] at h4
  generalize hz4 : t4.links.get? i = z4 at h4
  cases z4 with
  | none => simp at h4
  | some l4 =>
  simp only [Option.map_some, Option.some.injEq] at h4
  have m4 : l4 ∈ t4.links.vals := (mem_vals_iff i4.nd_links _).2 ⟨i, hz4⟩
  have ei : l4.id = i := (i4.link_id _ _ hz4).symm
  have hsel : sol.link l4.id = 1 := by
    rw [h4] at ep
    rw [ei]
    simp only [afterDecision] at ep
    split at ep
    · split at ep
      · assumption
      · cases ep
    · rename_i hno
      exact absurd (.inr ep) hno
  have w4 : l4.isWireless = true := by rw [h4] at hw; exact hw
  obtain ⟨b1, b2, b3, b4, b5, b6, b7⟩ := c1 l4 m4 w4 hsel
  have et : l5.tx = l4.tx := by rw [h4]
  have er : l5.rx = l4.rx := by rw [h4]
  have ec : l5.capacity = l4.capacity := by rw [h4]
  rw [et, er] at hn' ⊢
  rw [ec]
  obtain ⟨x4, x5, hx4, hx5, tx, px, sx⟩ := site _ b3
  obtain ⟨y4, y5, hy4, hy5, ty, py, sy⟩ := site _ b4
  have sx' : x5.status = .proposed ∨ x5.status = .existing := by
    rcases sx with e | e | e
    · exact .inl e
    · exact .inr e
    · exact absurd (.inl (by unfold siteStatus; rw [hx5, Option.map_some, e])) hn'
  have sy' : y5.status = .proposed ∨ y5.status = .existing := by
    rcases sy with e | e | e
    · exact .inl e
    · exact .inr e
    · exact absurd (.inr (by unfold siteStatus; rw [hy5, Option.map_some, e])) hn'
  refine ⟨b2, x5, y5, (st.site _).trans hx5, (st.site _).trans hy5, sx', sy', ?_, ?_⟩
  · intro hcn
    have htx := send4 l4 m4
    have hrx : Spec.typeAt ⟨t4, { p.toOptParams with ignorePolarities := false }⟩ l4.rx ≠ some .cn := by
      unfold Spec.typeAt
      dsimp only
      rw [hy4, Option.map_some]
      intro c
      exact hcn (ty.trans (Option.some.inj c))
    rw [px, py]
    have n1 := (c5 l4.tx).1
    have n2 := (c5 l4.rx).1
    rcases b6 rfl htx hrx with ⟨o, e⟩ | ⟨e, o⟩
    · left
      simp only [afterPolarity, o, if_true]
      rw [if_neg (fun c => n2 ⟨c, e⟩), if_pos e]
      constructor <;> first | rfl | trivial
    · right
      simp only [afterPolarity, o, if_true]
      rw [if_neg (fun c => n1 ⟨c, e⟩), if_pos e]
      constructor <;> first | rfl | trivial
  · intro r0 hr0 hrad
    have kr := k4.link ⟨l4.rx, l4.tx⟩
    rw [hr0] at kr
    generalize hz : t4.links.get? ⟨l4.rx, l4.tx⟩ = z at kr
    cases kr with
    | @some _ r4 kr =>
    have mr : r4 ∈ t4.links.vals := (mem_vals_iff i4.nd_links _).2 ⟨_, hz⟩
    have idr := i4.link_id _ _ hz
    simp only [LinkId.mk.injEq] at idr
    have rad4 : Radio r4 := by rw [kr]; exact hrad
    have selr := b7 r4 mr rad4 idr.1.symm idr.2.symm
    obtain ⟨in4, -⟩ := c1 r4 mr rad4.1 selr
    have hra := a3 ⟨l4.rx, l4.tx⟩
    rw [hz, Option.map_some] at hra
    have er4 : r4.id = ⟨l4.rx, l4.tx⟩ := by unfold Link.id; rw [← idr.1, ← idr.2]
    rw [er4] at selr
    have h35 := r3 ⟨l4.rx, l4.tx⟩
    rw [hra, Option.map_some, if_neg] at h35
    · have q5 := st.link ⟨l4.rx, l4.tx⟩
      rw [h35] at q5
      generalize t'.links.get? ⟨l4.rx, l4.tx⟩ = z at *
      cases q5 with
      | @some _ r q5 =>
      refine ⟨r, rfl, ?_⟩
      rw [show r.status = afterDecision r4.status (sol.link ⟨l4.rx, l4.tx⟩) by rw [q5], selr]
      revert in4
      cases r4.status <;> simp [StatusType.inactive, afterDecision]
    · rintro ⟨-, c⟩
      dsimp only at c
      rw [← idr.1, ← idr.2] at c
      exact hn' c.symm

theorem detour_known : SectorsKnown ⟨run {} detourDemo, detourParams.toOptParams⟩ :=
  SectorsKnown.of (by decide +kernel) (by decide +kernel)

/-- `C161_hop_limit` and `C163_final_links_partial` on a run that succeeds: the answers satisfy the constraints, a radio link
between distribution sites is PROPOSED. -/
example : (optimize detourOut detourParams (run {} detourDemo)).map (fun r =>
      (r.2, (r.1.links.get? ⟨"P", "D"⟩).map fun l => (l.status, l.isWireless))) = some (none, some (.proposed, true)) ∧
    SectorsKnown ⟨run {} detourDemo, detourParams.toOptParams⟩ ∧ SendersDist ⟨run {} detourDemo, detourParams.toOptParams⟩ ∧
    (∀ t I, detourOut.interf t = .ok I → 0 < I.channels) ∧
    (∀ P I f, (detourOut.interference P I).found = some f → P.InterfFeasible I f.vars ∧
      ∀ e ∈ P.arcs, 0 ≤ f.flow e ∧ f.flow e ≤ f.vars.flow e) := by
  refine ⟨by decide +kernel, detour_known, by unfold SendersDist; decide +kernel, ?_, detourOut_interf⟩
  intro t I h
  cases h
  decide

end Verif
