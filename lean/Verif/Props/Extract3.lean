import Verif.Props.Extract2
import Verif.Props.Solution

/-! # C83-C85: using an extracted plan -/

namespace Verif
open Topology Spec

/-- The sectors of the link are sectors of the topology at the two ends of the link. -/
def Spec.SectorsInPlace (t : Topology) (l : Link) : Prop :=
  ∀ a b, l.sectors = some (a, b) →
    (∃ d, t.sectors.get? a = some d ∧ d.site = l.tx) ∧
    (∃ d, t.sectors.get? b = some d ∧ d.site = l.rx)

namespace Plan
variable {P : Plan} {x : Vars} {flow : Arc → ℚ}

theorem siteDec_of_flow {s : SiteId} (h1 : x.site s = 1)
    (hf : eps < P.inFlow flow (.site s) ∨ eps < P.outFlow flow (.site s)) :
    P.siteDec x flow s = 1 := by
  have hb : bin (x.site s) = 1 := by rw [h1]; unfold bin eps; norm_num
  have hn : (near0 (P.inFlow flow (.site s)) && near0 (P.outFlow flow (.site s))) = false := by
    unfold near0
    rw [Bool.and_eq_false_iff, decide_eq_false_iff_not, decide_eq_false_iff_not]
    rcases hf with h | h
    · left; rintro ⟨_, h'⟩; linarith
    · right; rintro ⟨_, h'⟩; linarith
  unfold siteDec
  rw [hb, hn]
  simp

theorem carries (inv : P.t.Inv) (ok : P.setupErr = none) {adv : Arc → Bool}
    (feas : P.SiteFeasible adv x) (hf : ∀ e ∈ P.arcs, 0 ≤ flow e ∧ flow e ≤ x.flow e)
    {l : Link} (hl : l ∈ P.t.links.vals) (hs : SectorsInPlace P.t l)
    (hpos : eps < flow (arcOf l)) : (P.extracted x flow).link l.id = 1 := by
  have hm := arcOf_mem hl
  have e : P.linkOf (.site l.tx, .site l.rx) = some l := linkOf_arcOf inv hl
  have he0 : (0 : ℚ) < eps := by unfold eps; norm_num
  have hx : 0 < x.flow (arcOf l) := lt_of_lt_of_le (he0.trans hpos) (hf _ hm).2
  have k1 : x.site l.tx = 1 := selected_of_flow (ready ok) feas.bounds.site feas.bounds.flow
    feas.flowSite hm hx (Or.inl rfl)
  have k2 : x.site l.rx = 1 := selected_of_flow (ready ok) feas.bounds.site feas.bounds.flow
    feas.flowSite hm hx (Or.inr rfl)
  have s1 : P.siteDec x flow l.tx = 1 := siteDec_of_flow k1
    (Or.inr (lt_of_lt_of_le hpos (flow_le_outFlow (fun e he => (hf e he).1) hm)))
  have s2 : P.siteDec x flow l.rx = 1 := siteDec_of_flow k2
    (Or.inl (lt_of_lt_of_le hpos (flow_le_inFlow (fun e he => (hf e he).1) hm)))
  have hin : P.inactiveArc (.site l.tx, .site l.rx) = false := by
    rw [Bool.eq_false_iff]
    intro c
    have := feas.inactiveFlow _ hm c
    linarith
  have htf := feas.tdmFlow _ hm
  rw [hasTdm_arcOf inv hl] at htf
  have hcap : 0 < P.cap (.site l.tx, .site l.rx) ∧
      (l.isWireless = true → 0 < tdmSum 1 x (.site l.tx, .site l.rx)) := by
    change 0 < P.cap (arcOf l) ∧ (l.isWireless = true → 0 < tdmSum 1 x (arcOf l))
    by_cases hw : l.isWireless = true
    · rw [if_pos ⟨hw, Nat.one_pos⟩] at htf
      have ht := feas.bounds.tdm _ hm (by rw [hasTdm_arcOf inv hl]; exact hw) 0 Nat.one_pos
      have hts : tdmSum 1 x (arcOf l) = x.tdm (arcOf l) 0 := by unfold tdmSum; simp
      rw [hts] at htf ⊢
      have hpr := lt_of_lt_of_le hx htf
      refine ⟨?_, fun _ => ?_⟩
      · by_contra c
        push Not at c
        have := mul_nonpos_of_nonpos_of_nonneg c ht.1
        linarith
      · rcases lt_or_eq_of_le ht.1 with h | h
        · exact h
        · rw [← h] at hpr; simp at hpr
    · rw [if_neg (fun h => hw h.1)] at htf
      exact ⟨lt_of_lt_of_le hx (htf.trans (min_le_left _ _)), fun h => absurd h hw⟩
  have hpol : P.polOk x flow l.tx l.rx = true := by
    unfold polOk
    by_cases hi : P.p.ignorePolarities = true
    · simp [hi]
    by_cases hact : P.inputActive (.site l.tx, .site l.rx) = true
    · simp [hact]
    by_cases hwd : P.isWired (.site l.tx, .site l.rx) = true
    · simp [hwd]
    by_cases hd : (P.isDist (.site l.tx) && P.isDist (.site l.rx)) = true
    · rw [Bool.and_eq_true] at hd
      have hi' : P.p.ignorePolarities = false := Bool.eq_false_iff.2 hi
      obtain ⟨t1, t2⟩ := feas.tdmPolarity hi' l.tx l.rx hm (Bool.eq_false_iff.2 hact)
        (Bool.eq_false_iff.2 hwd) hd.1 hd.2
      have hw : l.isWireless = true := by
        unfold isWired at hwd
        simp only [e, Option.any_some, Bool.not_eq_true', Bool.not_eq_false] at hwd
        exact hwd
      have ht := hcap.2 hw
      have c1 : ∀ s, P.siteDec x flow s = 1 → P.isDist (.site s) = true →
          P.oddDec x flow s = bin (x.odd s) := by
        intro s h1 h2
        unfold oddDec; rw [hi', h1, h2]; simp
      have : P.oddDec x flow l.tx ≠ P.oddDec x flow l.rx := by
        rw [c1 _ s1 hd.1, c1 _ s2 hd.2]
        rcases feas.bounds.odd hi' _ hd.1 with h | h <;> rcases feas.bounds.odd hi' _ hd.2 with h' | h' <;>
          rw [h, h'] at t1 t2 ⊢
        · linarith
        · simp [bin, eps]; norm_num
        · simp [bin, eps]; norm_num
        · linarith
      simp [this]
    · rw [Bool.eq_false_iff.2 hd]; simp
  have hsec : P.isWired (.site l.tx, .site l.rx) = true ∨
      ((P.txSector (.site l.tx, .site l.rx)).any (fun k => P.sectorDec x flow l.tx k == 1) &&
       (P.rxSector (.site l.tx, .site l.rx)).any (fun k => P.sectorDec x flow l.rx k == 1)) = true := by
    by_cases hw : l.isWireless = true
    · right
      unfold inactiveArc at hin
      rw [e, Option.any_some, hw, Bool.true_and, Bool.or_eq_false_iff, Option.isNone_eq_false_iff,
        Option.isSome_iff_exists] at hin
      obtain ⟨⟨a, b⟩, hab⟩ := hin.2
      obtain ⟨⟨d, hd, hds⟩, d', hd', hds'⟩ := hs a b hab
      unfold txSector rxSector sectorDec
      rw [e]
      simp [hab, hd, hd', hds, hds', s1, s2]
    · left
      unfold isWired
      simp only [e, Option.any_some]
      simpa using hw
  have hsel : P.linkSel x flow (.site l.tx, .site l.rx) = true := by
    unfold linkSel linkCand
    dsimp only
    rw [hin, hpol, s1, s2, decide_eq_true hcap.1]
    rcases hsec with h | h
    · simp [h]
    · rw [h]; simp
  show (if (P.linkSel x flow (.site l.tx, .site l.rx) &&
      P.arcs.contains (.site l.tx, .site l.rx)) = true then (1 : Int) else 0) = 1
  rw [hsel, if_pos]
  rw [Bool.true_and, List.contains_eq_mem, decide_eq_true_eq]
  exact hm

end Plan

/-- **C83.** Every link on which the solution (after loop pruning, which only lowers
flows) carries more than the tolerance of 1e-5 is selected in the extracted
plan: the plan can carry its own traffic. -/
theorem C83_traffic_links_selected (ops : List Op) (p : OptParams) (adv : Arc → Bool) (x : Vars)
    (flow : Arc → ℚ) (common : Option ℚ) (sol : Solution) (cost : ℚ)
    (ok : (Plan.mk (run {} ops) p).setupErr = none)
    (feas : (Plan.mk (run {} ops) p).SiteFeasible adv x)
    (hf : ∀ e ∈ (Plan.mk (run {} ops) p).arcs, 0 ≤ flow e ∧ flow e ≤ x.flow e)
    (h : (Plan.mk (run {} ops) p).extract x flow common = .ok (some (sol, cost)))
    (l : Link) (hl : l ∈ (run {} ops).links.vals) (hs : SectorsInPlace (run {} ops) l)
    (hpos : 1 / 100000 < flow (arcOf l)) : sol.link l.id = 1 := by
  have inv : Topology.Inv (Plan.mk (run {} ops) p).t := Inv.empty.run ops
  rw [(Plan.extract_ok h).1]
  exact Plan.carries inv ok feas hf hl hs hpos

/-- In the demo plan the links P-D and D-C carry 1. -/
example :
    let P : Plan := ⟨run {} planDemo, planDemoParams⟩
    P.setupErr = none ∧ P.SiteFeasible (fun _ => false) planDemoVars ∧
    (∀ e ∈ P.arcs, 0 ≤ planDemoVars.flow e) ∧
    (∃ l ∈ P.t.links.vals, l.tx = "D" ∧ l.rx = "C" ∧ planDemoVars.flow (arcOf l) = 1 ∧
      SectorsInPlace P.t l) := by
  refine ⟨planDemo_ok, planDemo_feasible, by decide +kernel, ?_⟩
  refine ⟨{ tx := "D", rx := "C", capacity := 2,
            sectors := some (⟨"D", 0, 1, .dn⟩, ⟨"C", 0, 0, .cn⟩) }, by decide +kernel, rfl, rfl, by decide +kernel, ?_⟩
  rintro a b h
  injection h with h
  obtain ⟨rfl, rfl⟩ := Prod.mk.inj h
  exact ⟨⟨_, rfl, rfl⟩, ⟨_, rfl, rfl⟩⟩

end Verif
