import Verif.Model.ConnInterf
import Verif.Props.Connected
import Verif.Props.Interf2

/-! # C186: the demand sites counted as connectable by the interference phase -/

namespace Verif
open Topology Spec

namespace Spec

/-- A link traffic may use with the chosen links of `x`: positive capacity, not ruled
out; a radio link is chosen and joins opposite polarities if both ends are distribution
sites. -/
def ChosenHop (P : Plan) (x : IVars) (a b : SiteId) : Prop :=
  ∃ l ∈ P.t.links.vals, l.tx = a ∧ l.rx = b ∧ 0 < l.capacity ∧ l.status.inactive = false ∧
    (l.isWireless = true → l ∈ chosen P x) ∧
    (P.p.ignorePolarities = false → l.isWireless = true →
      ∀ y z, P.t.sites.get? a = some y → P.t.sites.get? b = some z → y.siteType ≠ .cn →
        z.siteType ≠ .cn → x.odd a ≠ x.odd b)

/-- The demand location `l` can be served from a POP over chosen links and live sites. -/
structure ChosenPath (P : Plan) (x : IVars) (path : List SiteId) (l : Loc) : Prop where
  start : ∃ p y, path.head? = some p ∧ P.t.sites.get? p = some y ∧ y.siteType = .pop
  hops : path.IsChain (ChosenHop P x)
  sites : ∀ s ∈ path, Live P s
  finish : ∃ q id d k, path.getLast? = some q ∧ P.t.demandSites.get? id = some d ∧
    k < d.numSites ∧ q ∈ d.connected ∧ l = .demand id k

/-- The demand location `l` receives traffic along live sites only. -/
def ServedLive (P : Plan) (f : Arc → ℚ) (l : Loc) : Prop :=
  ∃ path, ServingPath P f path l ∧ ∀ s ∈ path, Live P s

end Spec

namespace Plan
variable {P : Plan} {I : Interf} {x : IVars} {mark : Loc → ℚ}

theorem live_unit (feas : P.ConnInterfFeasible I x mark) {s : SiteId} (hs : s ∈ P.t.sites.keys) :
    P.inFlow x.flow (.site s) = P.outFlow x.flow (.site s) ∧
    (P.liveSite s = false → P.outFlow x.flow (.site s) = 0) := by
  have h := feas.balance (.site s) (mem_locations.2 (Or.inr (Or.inl ⟨s, hs, rfl⟩)))
  dsimp only at h
  split at h
  · rename_i hu
    refine ⟨?_, fun h' => by rw [hu] at h'; cases h'⟩
    by_cases c : P.incoming (.site s) ≠ [] ∨ P.outgoing (.site s) ≠ []
    · exact (h c).symm
    · simp only [ne_eq, not_or, not_not] at c
      rw [inFlow_nil c.1, outFlow_nil c.2]
  · have h1 : P.inFlow x.flow (.site s) = 0 := by
      by_cases c : P.incoming (.site s) = []
      · exact inFlow_nil c
      · exact h.1 c
    have h2 : P.outFlow x.flow (.site s) = 0 := by
      by_cases c : P.outgoing (.site s) = []
      · exact outFlow_nil c
      · exact h.2 c
    exact ⟨h1.trans h2.symm, fun _ => h2⟩

theorem counted_path (inv : P.t.Inv) (r : P.Ready) (feas : P.ConnInterfFeasible I x mark)
    {l : Loc} (hl : l ∈ P.demands) (hm : mark l = 1) : ∃ path, ChosenPath P x path l := by
  have nn : ∀ e ∈ P.arcs, 0 ≤ x.flow e := fun e he => (feas.flow e he).1
  obtain ⟨id, d, k, hd, hk, rfl⟩ := mem_demands.1 hl
  have hloc := mem_locations.2 (Or.inr (Or.inr hl))
  have hin : 0 < P.inFlow x.flow (.demand id k) := by
    have h := feas.balance _ hloc
    dsimp only at h
    rw [hm] at h
    by_contra c
    push Not at c
    have : 10 * (P.demands.length : ℚ) * P.inFlow x.flow (.demand id k) ≤ 0 :=
      mul_nonpos_of_nonneg_of_nonpos (by positivity) c
    linarith
  have hreach := reach_of_net inv.nd_sites inv.nd_demand r nn (by
    intro v hv hne
    rcases mem_locations.1 hv with h | ⟨s, hs, rfl⟩ | h
    · exact absurd h hne
    · rw [(live_unit feas hs).1]; simp
    · obtain ⟨i, e, j, _, _, rfl⟩ := mem_demands.1 h
      rw [outFlow_nil outgoing_demand, sub_zero]
      apply List.sum_nonneg
      intro y hy
      obtain ⟨a, ha, rfl⟩ := List.mem_map.1 hy
      exact nn a (mem_incoming.1 ha).1) hloc
    (by rw [outFlow_nil outgoing_demand, sub_zero]; exact hin)
  obtain ⟨path, ⟨p, y, h1, h2, h3, h4⟩, hh, q, hq, hqc⟩ := path_to_demand inv.nd_sites hreach
  have key : ∀ s v, Carries P x.flow (.site s) v → Live P s := by
    intro s v hc
    have hs : s ∈ P.t.sites.keys := by
      rcases mem_locations.1 (r.ends _ hc.1).1 with h | ⟨s', hs', h⟩ | h
      · cases h
      · injection h with h; exact h ▸ hs'
      · obtain ⟨_, _, _, _, _, h⟩ := mem_demands.1 h
        cases h
    rw [← liveSite_iff inv.nd_sites s]
    by_contra c
    have hz := (live_unit feas hs).2 (Bool.eq_false_iff.2 c)
    have h1 : x.flow (Loc.site s, v) ≤ P.outFlow x.flow (.site s) := flow_le_outFlow nn hc.1
    have h2 := hc.2
    linarith
  refine ⟨path, ⟨p, y, h1, h2, h3⟩, ?_, ?_, q, id, d, k, hq, (Dict.mem_iff_get? inv.nd_demand _ _).1 hd,
    hk, ?_, rfl⟩
  · refine List.IsChain.imp ?_ hh
    intro a b hab
    rcases mem_arcs.1 hab.1 with ⟨_, _, _, _, h⟩ | ⟨_, _, _, _, _, _, _, h⟩ | ⟨l, hl, h⟩
    · cases h
    · cases h
    · injection h with ea eb
      injection ea with ea; injection eb with eb
      subst ea eb
      have hlk : P.linkOf (.site l.tx, .site l.rx) = some l := linkOf_arcOf inv hl
      have hpos := hab.2
      have hig : P.ignoreLink (fun _ => false) (.site l.tx, .site l.rx) = false := by
        rw [Bool.eq_false_iff]; intro h
        rw [feas.ignored _ hab.1 h] at hpos; exact lt_irrefl _ hpos
      have hin : P.inactiveArc (.site l.tx, .site l.rx) = false := by
        rw [Bool.eq_false_iff]; intro h
        rw [feas.inactive _ hab.1 h] at hpos; exact lt_irrefl _ hpos
      unfold ignoreLink at hig
      unfold inactiveArc at hin
      rw [hlk] at hig hin
      simp only [Option.any_some, Bool.or_eq_false_iff, decide_eq_false_iff_not, not_le] at hig hin
      have hact : l.isWireless = true → P.hasActive (arcOf l) = true ∧ x.active (arcOf l) = 1 ∧
          Radio l := by
        intro hw
        have hr : Radio l := by
          refine ⟨hw, hig.1, ?_⟩
          have := hin.2
          rw [hw] at this
          cases hsec : l.sectors with
          | none => rw [hsec] at this; simp at this
          | some _ => rfl
        have ha := (hasActive_arcOf inv hl).2 hr
        refine ⟨ha, ?_, hr⟩
        rcases feas.active _ hab.1 ha with h | h
        · have := feas.flowLink _ hab.1 ha
          rw [h] at this; linarith
        · exact h
      refine ⟨l, hl, rfl, rfl, hig.1, hin.1, ?_, ?_⟩
      · intro hw
        exact List.mem_filter.2 ⟨hl, decide_eq_true ⟨(hact hw).2.2, (hact hw).2.1⟩⟩
      · intro hpol hw y z hy hz hyt hzt
        have d1 : P.isDist (.site l.tx) = true := by
          unfold isDist; rw [siteType?_of hy]
          cases h : y.siteType <;> first | exact absurd h hyt | rfl
        have d2 : P.isDist (.site l.rx) = true := by
          unfold isDist; rw [siteType?_of hz]
          cases h : z.siteType <;> first | exact absurd h hzt | rfl
        obtain ⟨ha, ha1, _⟩ := hact hw
        by_cases hf : P.fixedArc (.site l.tx, .site l.rx) = true
        · have ht := feas.fixedPolarity hpol _ _ hab.1 hf d1 d2
          rcases feas.odd hpol _ d1 with o1 | o1 <;> rw [o1] at ht ⊢ <;> intro he <;>
            rw [← he] at ht <;> norm_num at ht
        · have ht := feas.polarity hpol _ _ hab.1 (Bool.eq_false_iff.2 hf) ha d1 d2
          change x.active (.site l.tx, .site l.rx) = 1 at ha1
          rw [ha1] at ht
          rcases feas.odd hpol _ d1 with o1 | o1 <;> rcases feas.odd hpol _ d2 with o2 | o2 <;>
            rw [o1, o2] at ht <;> rw [o1, o2] <;> first | (exfalso; linarith [ht.1, ht.2]) | norm_num
  · intro s hs
    obtain ⟨v, hv⟩ := chain_out path hh ⟨q, hq, hqc⟩ s hs
    exact key s v hv
  · rcases mem_arcs.1 hqc.1 with ⟨_, _, _, _, h⟩ | ⟨i, e, j, s, he, _, hs, h⟩ | ⟨l, hl, h⟩
    · cases h
    · injection h with ea eb
      injection ea with ea; injection eb with eb
      subst ea eb
      have a1 := (Dict.mem_iff_get? inv.nd_demand _ _).1 hd
      have a2 := (Dict.mem_iff_get? inv.nd_demand _ _).1 he
      rw [a1] at a2; injection a2 with a2
      rw [a2]; exact hs
    · cases h

/-- An arc that carries traffic and touches live sites only. -/
def LiveCarries (P : Plan) (f : Arc → ℚ) (a b : Loc) : Prop :=
  Carries P f a b ∧ ∀ s, a = .site s ∨ b = .site s → Live P s

theorem servedLive_chain {f : Arc → ℚ} {l : Loc} (hl : l ∈ P.demands) (h : ServedLive P f l) :
    ∃ (q : List SiteId) (id : DemandId) (k : Nat), q.Nodup ∧ l = Loc.demand id k ∧
      (Loc.source :: (q.map Loc.site ++ [l])).IsChain (LiveCarries P f) := by
  obtain ⟨id, d, k, _, _, rfl⟩ := mem_demands.1 hl
  obtain ⟨path, ⟨⟨p, y, hp, hy, hty, hpc⟩, hh, z, hz, hzc⟩, hs⟩ := h
  have hne : path ≠ [] := by rintro rfl; cases hp
  obtain ⟨q, q1, q2, q3, q4, q5⟩ := simple_path path (chain_and path hh hs) hne
  refine ⟨q, id, k, q2, rfl, ?_⟩
  have hsq : ∀ s ∈ q, Live P s := fun s h => hs s (q5 s h)
  rw [hp] at q3
  rw [hz] at q4
  have hpq : p ∈ q := List.mem_of_mem_head? q3
  have hzq : z ∈ q := List.mem_of_mem_getLast? q4
  rw [List.isChain_cons]
  constructor
  · intro b hb
    have : b = .site p := by
      cases q with
      | nil => cases q3
      | cons a t =>
        simp only [List.head?_cons, Option.some.injEq] at q3
        simp only [List.map_cons, List.cons_append, List.head?_cons, Option.mem_def,
          Option.some.injEq] at hb
        rw [← hb, q3]
    subst this
    refine ⟨hpc, ?_⟩
    rintro s (h | h)
    · cases h
    · injection h with h; exact h ▸ hsq p hpq
  · rw [List.isChain_append]
    refine ⟨?_, by simp, ?_⟩
    · rw [List.isChain_map]
      refine List.IsChain.imp ?_ q1
      rintro a b ⟨hl, ha, hb⟩
      refine ⟨hl, ?_⟩
      rintro s (h | h)
      · injection h with h; exact h ▸ ha
      · injection h with h; exact h ▸ hb
    · intro a ha b hb
      simp only [List.head?_cons, Option.mem_def, Option.some.injEq] at hb
      subst hb
      have : a = .site z := by
        rw [List.getLast?_map, q4] at ha
        simpa using ha.symm
      subst this
      refine ⟨hzc, ?_⟩
      rintro s (h | h)
      · injection h with h; exact h ▸ hsq z hzq
      · cases h

/-- The demand locations a network of the interference phase serves over live sites can
all be marked at once. -/
theorem served_marked (inv : P.t.Inv) (hn : 0 < I.channels) {z : IVars}
    (feas : P.InterfFeasible I z) :
    ∃ x mark, P.ConnInterfFeasible I x mark ∧ ∀ l ∈ P.demands, ServedLive P z.flow l → mark l = 1 := by
  classical
  let S := P.demands.filter (fun l => ServedLive P z.flow l)
  let c : ℚ := 1 / (P.demands.length : ℚ)
  have hc : 0 ≤ c := by positivity
  obtain ⟨f, f1, f2, f3, f4⟩ := superpose (P := P) (R := LiveCarries P z.flow) (fun a b h => h.1.1) hc S
    (by
      intro l hl
      obtain ⟨h1, h2⟩ := List.mem_filter.1 hl
      exact servedLive_chain h1 (of_decide_eq_true h2))
  have hle : (S.length : ℚ) * c ≤ 1 := by
    have h1 : S.length ≤ P.demands.length := List.length_filter_le _ _
    have h2 : (S.length : ℚ) ≤ P.demands.length := by exact_mod_cast h1
    by_cases h0 : (P.demands.length : ℚ) = 0
    · show _ * (1 / (P.demands.length : ℚ)) ≤ 1
      rw [h0]; norm_num
    · have hp : 0 < (P.demands.length : ℚ) := lt_of_le_of_ne (by positivity) (Ne.symm h0)
      show _ * (1 / (P.demands.length : ℚ)) ≤ 1
      rw [mul_one_div, div_le_one hp]; exact h2
  refine ⟨{ z with flow := f }, fun l => if ServedLive P z.flow l then 1 else 0, ?_, ?_⟩
  · refine ⟨fun e _ => ⟨(f1 e).1, (f1 e).2.trans hle⟩, feas.active, feas.sector, feas.bounds.odd, ?_,
      feas.site, ?_, ?_, feas.polarity, feas.fixedPolarity, ?_, feas.decided, feas.sectorSite,
      feas.sameNode, feas.sectorChannel, feas.sectorLink, feas.symmetric, feas.multiPoint,
      feas.cnLinks, feas.deployment, feas.angle, ?_⟩
    · intro l _
      split <;> simp
    · intro e he hin
      show f e = 0
      by_contra hne
      have := (f4 e hne).1.2
      change 0 < z.flow e at this
      rw [feas.inactiveFlow e he hin] at this
      exact lt_irrefl _ this
    · intro e he hig
      show f e = 0
      by_contra hne
      have hpos := (f4 e hne).1.2
      change 0 < z.flow e at hpos
      unfold ignoreLink at hig
      simp only [Bool.or_false] at hig
      rcases mem_arcs.1 he with ⟨_, _, _, _, rfl⟩ | ⟨_, _, _, _, _, _, _, rfl⟩ | ⟨l, hl, rfl⟩
      · cases hig
      · cases hig
      · have hlk : P.linkOf (.site l.tx, .site l.rx) = some l := linkOf_arcOf inv hl
        rw [hlk] at hig
        simp only [Option.any_some, decide_eq_true_eq] at hig
        by_cases hw : l.isWireless = true
        · have := (flow_chosen inv feas hn hl hw hpos).2.1.2.1
          linarith
        · have h1 := feas.tdmFlow _ he
          have h2 : P.hasTdm (.site l.tx, .site l.rx) = l.isWireless := hasTdm_arcOf inv hl
          have h3 : P.cap (.site l.tx, .site l.rx) = l.capacity := cap_arcOf inv hl
          rw [if_neg (fun h => hw (h2 ▸ h.1)), h3] at h1
          have := min_le_left l.capacity P.maxThroughput
          linarith
    · intro v hv
      rcases mem_locations.1 hv with rfl | ⟨s, hs, rfl⟩ | hd
      · intro _
        exact outFlow_nonneg (fun e => (f1 e).1) _
      · dsimp only
        split
        · intro _; exact (f2 s).symm
        · rename_i hu
          have hcl : ¬ Live P s := fun h => hu ((liveSite_iff inv.nd_sites s).2 h)
          have hz : P.outFlow f (.site s) = 0 := by
            apply List.sum_eq_zero
            intro y hy
            obtain ⟨e, he, rfl⟩ := List.mem_map.1 hy
            by_contra hne
            exact hcl ((f4 e hne).2 s (Or.inl (mem_outgoing.1 he).2))
          exact ⟨fun _ => (f2 s).trans hz, fun _ => hz⟩
      · obtain ⟨id, d, k, h1, h2, rfl⟩ := mem_demands.1 hd
        dsimp only
        have hn : 0 < (P.demands.length : ℚ) := by
          exact_mod_cast List.length_pos_of_mem hd
        have h0 := inFlow_nonneg (P := P) (fun e => (f1 e).1) (.demand id k)
        split
        · rename_i hop
          have h3 := f3 _ (List.mem_filter.2 ⟨hd, decide_eq_true hop⟩)
          have : 1 ≤ (P.demands.length : ℚ) * P.inFlow f (.demand id k) := by
            have := mul_le_mul_of_nonneg_left h3 hn.le
            rwa [mul_one_div_cancel hn.ne'] at this
          show (1 : ℚ) ≤ 10 * (P.demands.length : ℚ) * P.inFlow f (.demand id k)
          nlinarith
        · show (0 : ℚ) ≤ 10 * (P.demands.length : ℚ) * P.inFlow f (.demand id k)
          positivity
    · intro e he ha
      show f e ≤ z.active e
      by_cases hz : f e = 0
      · rw [hz]
        rcases feas.active e he ha with h | h <;> rw [h]; norm_num
      · have hpos := (f4 e hz).1.2
        change 0 < z.flow e at hpos
        have h1 := feas.flowLink e he ha
        rcases feas.active e he ha with h | h
        · rw [h, mul_zero] at h1; linarith
        · rw [h]; exact (f1 e).2.trans hle
  · intro l _ h
    exact if_pos h

end Plan

/-- **C186.** A demand location the interference phase counts as connectable has a path
from a POP over live sites, usable cables and chosen radio links between opposite
polarities, where at most one chosen link reaches each CN and a link and its reverse are
chosen together. -/
theorem C186_counted_has_path (ops : List Op) (p : OptParams) (I : Interf) (x : IVars)
    (mark : Loc → ℚ) (ok : (Plan.mk (run {} ops) p).setupErr = none)
    (feas : (Plan.mk (run {} ops) p).ConnInterfFeasible I x mark) :
    let P : Plan := ⟨run {} ops, p⟩
    (∀ l ∈ P.demands, mark l = 1 → ∃ path, ChosenPath P x path l) ∧
    (∀ s, typeAt P s = some .cn → ((chosen P x).filter (fun l => l.rx = s)).length ≤ 1) ∧
    (∀ l ∈ P.t.links.vals, ∀ r ∈ P.t.links.vals, Radio l → Radio r → r.tx = l.rx → r.rx = l.tx →
      (l ∈ chosen P x ↔ r ∈ chosen P x)) := by
  intro P
  have inv : P.t.Inv := Inv.empty.run ops
  refine ⟨fun l hl hm => Plan.counted_path inv (Plan.ready ok) feas hl hm, ?_, ?_⟩
  · intro s hs
    have hc := Plan.chosen_count inv feas.active (fun e => decide (e.2 = .site s))
    have hfil : P.arcs.filter (fun e => P.hasActive e && decide (e.2 = .site s)) =
        (P.incoming (.site s)).filter P.hasActive := by
      unfold Plan.incoming
      rw [List.filter_filter]
    rw [hfil] at hc
    have hlen : ((chosen P x).filter (fun l => l.rx = s)).length =
        ((chosen P x).filter (fun l => decide ((arcOf l).2 = .site s))).length := by
      congr 1
      apply List.filter_congr
      intro l _
      simp [arcOf]
    rw [hlen]
    by_cases he : (P.incoming (.site s)).filter P.hasActive = []
    · rw [he, List.map_nil, List.sum_nil] at hc
      have : ((chosen P x).filter (fun l => decide ((arcOf l).2 = .site s))).length = 0 := by
        exact_mod_cast hc.symm
      omega
    · have := feas.cnLinks s hs he
      change (((P.incoming (.site s)).filter P.hasActive).map x.active).sum ≤ 1 at this
      rw [hc] at this
      exact_mod_cast this
  · intro l hl r hr h1 h2 e1 e2
    have g1 := Plan.arcOf_mem (P := P) hl
    have g2 := Plan.arcOf_mem (P := P) hr
    have a1 := (Plan.hasActive_arcOf inv hl).2 h1
    have a2 := (Plan.hasActive_arcOf inv hr).2 h2
    have hrev : arcOf r = ((arcOf l).2, (arcOf l).1) := by
      unfold arcOf
      rw [e1, e2]
    rw [hrev] at g2 a2
    have := feas.symmetric _ _ g1 a1 g2 a2
    unfold chosen
    simp only [List.mem_filter, hl, hr, h1, h2, true_and, decide_eq_true_eq, hrev]
    change x.active (Loc.site l.tx, Loc.site l.rx) = 1 ↔ x.active (Loc.site l.rx, Loc.site l.tx) = 1
    rw [this]

open Classical in
/-- **C186.** No network of the interference phase serves more demand locations over live
sites than a best solution counts as connectable. -/
theorem C186_enough_counted (ops : List Op) (p : OptParams) (I : Interf) (x : IVars)
    (mark : Loc → ℚ) (feas : (Plan.mk (run {} ops) p).ConnInterfFeasible I x mark)
    (best : ∀ x' mark', (Plan.mk (run {} ops) p).ConnInterfFeasible I x' mark' →
      ((Plan.mk (run {} ops) p).demands.map mark').sum ≤
        ((Plan.mk (run {} ops) p).demands.map mark).sum)
    (z : IVars) (hz : (Plan.mk (run {} ops) p).InterfFeasible I z) (hn : 0 < I.channels) :
    let P : Plan := ⟨run {} ops, p⟩
    (P.demands.filter (fun l => ServedLive P z.flow l)).length ≤
      (P.demands.filter (fun l => mark l = 1)).length := by
  intro P
  obtain ⟨x', mark', h1, h2⟩ := Plan.served_marked (P := P) (Inv.empty.run ops) hn hz
  have hb := best x' mark' h1
  change (P.demands.map mark').sum ≤ (P.demands.map mark).sum at hb
  rw [Plan.mark_sum mark' P.demands h1.binary, Plan.mark_sum mark P.demands feas.binary] at hb
  have hb' : (P.demands.filter (fun l => mark' l = 1)).length ≤
      (P.demands.filter (fun l => mark l = 1)).length := by exact_mod_cast hb
  refine le_trans ?_ hb'
  rw [← List.countP_eq_length_filter, ← List.countP_eq_length_filter]
  refine List.countP_mono_left ?_
  intro l hl h
  exact decide_eq_true (h2 l hl (of_decide_eq_true h))

/-- The hypotheses of C186 on the demo network, where both demand sites are served over
live sites. -/
example :
    let P : Plan := ⟨run {} interfDemo, interfDemoParams⟩
    P.setupErr = none ∧ 0 < interfDemoIn.channels ∧ P.InterfFeasible interfDemoIn interfDemoVars ∧
    ServedLive P interfDemoVars.flow (.demand "q" 0) ∧
    ServedLive P interfDemoVars.flow (.demand "r" 0) ∧
    ∃ x mark, P.ConnInterfFeasible interfDemoIn x mark ∧ mark (.demand "q" 0) = 1 ∧
      mark (.demand "r" 0) = 1 ∧ ∀ x' mark', P.ConnInterfFeasible interfDemoIn x' mark' →
        (P.demands.map mark').sum ≤ (P.demands.map mark).sum := by
  intro P
  have inv : P.t.Inv := Inv.empty.run interfDemo
  have live : ∀ s ∈ ["P", "D", "F", "C", "G"], Live P s := by
    intro s hs
    rw [← Plan.liveSite_iff inv.nd_sites s]
    revert s; decide +kernel
  have car : ∀ a b, (a, b) ∈ P.arcs ∧ 0 < interfDemoVars.flow (a, b) →
      Carries P interfDemoVars.flow a b := fun _ _ h => h
  have hq : ServedLive P interfDemoVars.flow (.demand "q" 0) :=
    ⟨["P", "D", "C"], ⟨⟨"P", _, rfl, rfl, rfl, car _ _ (by decide +kernel)⟩,
      List.isChain_cons_cons.2 ⟨car _ _ (by decide +kernel),
        List.isChain_cons_cons.2 ⟨car _ _ (by decide +kernel), by simp⟩⟩,
      "C", rfl, car _ _ (by decide +kernel)⟩, fun s hs => live s (by revert s; decide)⟩
  have hr : ServedLive P interfDemoVars.flow (.demand "r" 0) :=
    ⟨["P", "F", "G"], ⟨⟨"P", _, rfl, rfl, rfl, car _ _ (by decide +kernel)⟩,
      List.isChain_cons_cons.2 ⟨car _ _ (by decide +kernel),
        List.isChain_cons_cons.2 ⟨car _ _ (by decide +kernel), by simp⟩⟩,
      "G", rfl, car _ _ (by decide +kernel)⟩, fun s hs => live s (by revert s; decide)⟩
  refine ⟨interfDemo_ok, by decide, interfDemo_feasible, hq, hr, ?_⟩
  obtain ⟨x, mark, h1, h2⟩ := Plan.served_marked (P := P) inv (by decide) interfDemo_feasible
  have hd : P.demands = [.demand "q" 0, .demand "r" 0] := by decide +kernel
  have m1 := h2 (.demand "q" 0) (by rw [hd]; simp) hq
  have m2 := h2 (.demand "r" 0) (by rw [hd]; simp) hr
  refine ⟨x, mark, h1, m1, m2, ?_⟩
  intro x' mark' h'
  have b1 := h'.binary (.demand "q" 0) (by rw [hd]; simp)
  have b2 := h'.binary (.demand "r" 0) (by rw [hd]; simp)
  rw [hd]
  simp only [List.map_cons, List.map_nil, List.sum_cons, List.sum_nil, m1, m2]
  rcases b1 with b1 | b1 <;> rcases b2 with b2 | b2 <;> rw [b1, b2] <;> norm_num

end Verif
