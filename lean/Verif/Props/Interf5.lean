import Verif.Props.Interf4

/-! # C96, C97: the interference plan is read off without failing; its cost -/

namespace Verif
open Topology Spec

namespace Plan
variable {P : Plan} {I : Interf} {x : IVars} {flow : Arc → ℚ}

theorem le_sum_nonneg {α : Type} {L : List α} {f : α → ℚ} (h : ∀ a ∈ L, 0 ≤ f a) {a : α}
    (ha : a ∈ L) : f a ≤ (L.map f).sum := by
  induction L with
  | nil => cases ha
  | cons b L ih =>
    simp only [List.map_cons, List.sum_cons]
    have h0 : 0 ≤ (L.map f).sum := List.sum_nonneg (by
      intro q hq
      obtain ⟨c, hc, rfl⟩ := List.mem_map.1 hq
      exact h c (List.mem_cons_of_mem _ hc))
    rcases List.mem_cons.1 ha with rfl | ha
    · linarith
    · have := ih (fun c hc => h c (List.mem_cons_of_mem _ hc)) ha
      have := h b (by simp)
      linarith

/-- Time on a channel only if the sending sector is on that channel. -/
theorem tdm_le_sector (inv : P.t.Inv) (known : SectorsKnown P) (send : SendersDist P)
    (feas : P.InterfFeasible I x) {l : Link} (hl : l ∈ P.t.links.vals)
    (hw : l.isWireless = true) {k1 k2 : SectorId} (hk : l.sectors = some (k1, k2)) :
    ∃ d, P.t.sectors.get? k1 = some d ∧ d.typ = .dn ∧
      ∀ c < I.channels, x.tdm (arcOf l) c ≤ x.sector k1 c := by
  obtain ⟨⟨d, hd, e⟩, _⟩ := known.ends l hl k1 k2 hk
  have ht : d.typ = .dn := by
    cases h : d.typ with
    | dn => rfl
    | cn => exact absurd (e ▸ (sector_typ known hd).1 h) (send l hl)
  refine ⟨d, hd, ht, fun c hc => ?_⟩
  have hm : arcOf l ∈ P.txArcs d.site k1 := by
    refine List.mem_filter.2 ⟨mem_outgoing.2 ⟨arcOf_mem hl, by rw [e]; rfl⟩, ?_⟩
    have h1 := (sectors_arcOf inv hl).1
    rw [hk] at h1
    have h2 := (hasTdm_arcOf inv hl).trans hw
    simp [h1, h2]
  have key : d.site ∈ P.t.sites.keys := by
    obtain ⟨y, hy, _⟩ := known.typed k1 d hd
    exact (Dict.mem_keys_iff _ _).2 ⟨y, hy⟩
  have := (feas.tdmSector k1 d hd key c hc (hasSector_dn hd ht hc)).1 (List.ne_nil_of_mem hm)
  refine le_trans (le_sum_nonneg (f := fun e => x.tdm e c) ?_ hm) this
  intro f hf
  obtain ⟨h1, h2⟩ := List.mem_filter.1 hf
  simp only [Bool.and_eq_true] at h2
  exact (feas.bounds.tdm f (mem_outgoing.1 h1).1 h2.2 c hc).1

theorem no_clash (inv : P.t.Inv) (known : SectorsKnown P) (send : SendersDist P)
    (feas : P.InterfFeasible I x)
    (full : ∀ l ∈ P.t.links.vals, l.isWireless = true → l.sectors.isSome = true) :
    P.arcs.any (P.tdmClash I.channels x.toVars) = false := by
  rw [List.any_eq_false]
  intro e he hc
  unfold tdmClash at hc
  simp only [Bool.and_eq_true, decide_eq_true_eq] at hc
  obtain ⟨⟨h1, hn⟩, h2⟩ := hc
  obtain ⟨l, hl, rfl⟩ : ∃ l ∈ P.t.links.vals, e = arcOf l := by
    rcases mem_arcs.1 he with ⟨_, _, _, _, rfl⟩ | ⟨_, _, _, _, _, _, _, rfl⟩ | ⟨l, hl, rfl⟩
    · simp [hasTdm, real] at h1
    · simp [hasTdm, real] at h1
    · exact ⟨l, hl, rfl⟩
  have hw : l.isWireless = true := (hasTdm_arcOf inv hl).symm.trans h1
  obtain ⟨⟨k1, k2⟩, hk⟩ := Option.isSome_iff_exists.1 (full l hl hw)
  obtain ⟨d, hd, ht, hle⟩ := tdm_le_sector inv known send feas hl hw hk
  have h01 := fun c (hc : c < I.channels) => feas.sector k1 c hc (hasSector_dn hd ht hc)
  have one : ∀ c ∈ (List.range I.channels).filter (fun c => !near0 (x.tdm (arcOf l) c)),
      c < I.channels ∧ x.sector k1 c = 1 := by
    intro c hc
    obtain ⟨g1, g2⟩ := List.mem_filter.1 hc
    have g1 := List.mem_range.1 g1
    refine ⟨g1, ?_⟩
    rcases h01 c g1 with h0 | h0
    · exfalso
      have a := hle c g1
      have b := (feas.bounds.tdm _ he h1 c g1).1
      have : x.tdm (arcOf l) c = 0 := le_antisymm (h0 ▸ a) b
      rw [this] at g2
      revert g2
      norm_num [near0, eps]
    · exact h0
  have hs : P.sectorSum I.channels x.toVars k1 ≤ 1 := by
    rcases sectorSum_le_one feas hd hn with h | h <;> rw [h]
    norm_num
  rw [sectorSum_dn hd ht] at hs
  have nd : ((List.range I.channels).filter fun c => !near0 (x.tdm (arcOf l) c)).Nodup :=
    List.nodup_range.filter _
  generalize (List.range I.channels).filter (fun c => !near0 (x.tdm (arcOf l) c)) = L at *
  match L, h2, one, nd with
  | a :: b :: L, _, one, nd =>
    obtain ⟨a1, a2⟩ := one a (by simp)
    obtain ⟨b1, b2⟩ := one b (by simp)
    have hne : b ≠ a := by
      intro h
      rw [h] at nd
      simp at nd
    have := one_class h01 hs a1 a2 b b1 hne
    rw [b2] at this
    norm_num at this

theorem no_sectorErr (inv : P.t.Inv) (known : SectorsKnown P)
    (feas : P.InterfFeasible I x) (hn : 0 < I.channels)
    (hf : ∀ e ∈ P.arcs, 0 ≤ flow e ∧ flow e ≤ x.flow e) :
    P.iSectorErr I.channels x flow = none := by
  have get : ∀ e ∈ P.t.sectors, P.t.sectors.get? e.1 = some e.2 := fun e he =>
    (Dict.mem_iff_get? inv.nd_sectors e.1 e.2).1 he
  have le1 : ∀ e ∈ P.t.sectors, (P.chanDecisions I.channels x.toVars e.1).sum ≤ 1 := by
    intro e he
    have h := chan_sum feas e.1
    rcases sectorSum_le_one feas (get e he) hn with h' | h' <;> rw [h'] at h
    · have : (P.chanDecisions I.channels x.toVars e.1).sum = 0 := by exact_mod_cast h
      omega
    · have : (P.chanDecisions I.channels x.toVars e.1).sum = 1 := by exact_mod_cast h
      omega
  have ne : ∀ e ∈ P.t.sectors, (P.chanDecisions I.channels x.toVars e.1).isEmpty = false := by
    intro e he
    rw [List.isEmpty_eq_false_iff]
    unfold chanDecisions
    rw [ne_eq, List.map_eq_nil_iff]
    apply List.ne_nil_of_mem (a := 0)
    exact List.mem_filter.2 ⟨List.mem_range.2 hn, hasSector_zero hn (get e he)⟩
  unfold iSectorErr
  rw [if_neg, if_neg, if_neg]
  · intro h
    rw [List.any_eq_true] at h
    obtain ⟨e, he, h⟩ := h
    obtain ⟨h1, h2⟩ := List.mem_filter.1 he
    rw [List.any_eq_true] at h
    obtain ⟨q, hq, h⟩ := h
    rcases mem_arcs.1 h1 with ⟨_, _, _, _, rfl⟩ | ⟨_, _, _, _, _, _, _, rfl⟩ | ⟨l, hl, rfl⟩
    · simp [iLinkSel] at h2
    · simp [iLinkSel] at h2
    · obtain ⟨t1, t2⟩ := sectors_arcOf inv hl
      unfold arcOf at t1 t2
      unfold sectorEnds at hq
      dsimp only at hq
      rw [t1, t2] at hq
      cases hk : l.sectors with
      | none => rw [hk] at hq; simp at hq
      | some z =>
        obtain ⟨k1, k2⟩ := z
        rw [hk] at hq
        obtain ⟨⟨d1, hd1, _⟩, d2, hd2, _⟩ := known.ends l hl k1 k2 hk
        simp at hq
        rcases hq with rfl | rfl
        · simp [hd1] at h
        · simp [hd2] at h
  · intro h
    rw [List.any_eq_true] at h
    obtain ⟨e, he, h⟩ := h
    simp only [Bool.and_eq_true, decide_eq_true_eq, beq_iff_eq] at h
    obtain ⟨⟨h1, _⟩, h2⟩ := h
    have hcn := (sector_typ known (get e he)).1 h1
    cases hfe : P.cnFeeds x flow e.2.site e.1 with
    | nil => rw [hfe] at h2; simp at h2
    | cons a L =>
      have ha : a ∈ P.cnFeeds x flow e.2.site e.1 := by rw [hfe]; simp
      rw [(cnFeeds_eq inv feas hn hf hcn ha).1] at h2
      simp at h2
  · intro h
    rw [List.any_eq_true] at h
    obtain ⟨e, he, h⟩ := h
    rw [ne e he, Bool.false_or, decide_eq_true_eq] at h
    have := le1 e he
    omega

end Plan

/-- **C96, `_partial`.** Reading a plan off a feasible solution of the interference phase
never trips the assertions of the code, provided every radio link has sectors and a
positive common bandwidth comes with some traffic. Missing: radio links without sectors,
see `C96_violation`. -/
theorem C96_no_failure_partial (ops : List Op) (p : OptParams) (I : Interf) (x : IVars)
    (flow : Arc → ℚ) (common : Option ℚ)
    (feas : (Plan.mk (run {} ops) p).InterfFeasible I x)
    (known : SectorsKnown ⟨run {} ops, p⟩) (send : SendersDist ⟨run {} ops, p⟩)
    (hn : 0 < I.channels)
    (hf : ∀ e ∈ (Plan.mk (run {} ops) p).arcs, 0 ≤ flow e ∧ flow e ≤ x.flow e)
    (full : ∀ l ∈ (run {} ops).links.vals, l.isWireless = true → l.sectors.isSome = true)
    (hc : ∀ q, common = some q → q ≠ 0 →
      1 / 100000 < ((Plan.mk (run {} ops) p).arcs.map flow).sum) :
    (∃ plan, (Plan.mk (run {} ops) p).iExtract I.channels x flow common = .ok (some plan)) ∨
    ((Plan.mk (run {} ops) p).iExtract I.channels x flow common = .ok none ∧
      ((Plan.mk (run {} ops) p).arcs.map flow).sum ≤ 1 / 100000) := by
  have inv : (Plan.mk (run {} ops) p).t.Inv := Inv.empty.run ops
  have h1 := Plan.no_clash inv known send feas full
  have h3 := Plan.no_sectorErr inv known feas hn hf
  by_cases h2 : Plan.near0 ((Plan.mk (run {} ops) p).arcs.map flow).sum = true
  · right
    have h4 := of_decide_eq_true h2
    refine ⟨?_, h4.2⟩
    unfold Plan.iExtract
    rw [h1, h2]
    have : common.any (fun q => q ≠ 0) = false := by
      cases e : common with
      | none => rfl
      | some q =>
        by_contra hq
        have hq : q ≠ 0 := by simpa using hq
        exact absurd h4.2 (not_le.2 (hc q e hq))
    rw [this]
    rfl
  · left
    obtain ⟨cost, h, -⟩ := Plan.iExtract_of (common := common) (x := x) (flow := flow)
      (by rw [h1, h3, Bool.eq_false_iff.2 h2]; rfl)
    exact ⟨_, h⟩

/-- The hypotheses of `C96_no_failure_partial` on the example. -/
example : (∀ l ∈ (run {} interfDemo).links.vals, l.isWireless = true → l.sectors.isSome = true) ∧
    1 / 100000 < ((Plan.mk (run {} interfDemo) interfDemoParams).arcs.map interfDemoVars.flow).sum :=
  ⟨by decide +kernel, by decide +kernel⟩

/-- **C96, violated.** A radio link without sectors may get time on two channels, which the
constraints allow and the reader refuses: the phase raises although the solver found a
solution. -/
theorem C96_violation : ∃ (ops : List Op) (p : OptParams) (I : Interf) (x : IVars),
    (Plan.mk (run {} ops) p).setupErr = none ∧
    (Plan.mk (run {} ops) p).InterfFeasible I x ∧
    (Plan.mk (run {} ops) p).iExtract I.channels x x.flow none = .error .optimizer := by
  let l : Link := ⟨"D", "F", none, true, .candidate, 4, 0, none, false⟩
  let ops : List Op := interfDemo ++ [Op.addLink l, Op.addLink { l with tx := "F", rx := "D" }]
  let v : IVars := { interfDemoVars with
    tdm := fun e c => if e = (.site "D", .site "F") then 1/2 else interfDemoVars.tdm e c }
  refine ⟨ops, interfDemoParams, interfDemoIn, v, by decide +kernel,
    Plan.ICheck.sound (by decide +kernel), ?_⟩
  unfold Plan.iExtract
  rw [if_pos (by decide +kernel)]

/-- **C97, `_partial`.** The cost reported with an interference plan is the cost of what the
plan builds, if the sectors of a node are selected together. Missing: nodes with a sector
selected and another not, see `C97_violation`. -/
theorem C97_cost_partial (ops : List Op) (p : OptParams) (I : Interf) (x : IVars)
    (flow : Arc → ℚ) (common : Option ℚ) (sol : Solution) (cost : ℚ)
    (feas : (Plan.mk (run {} ops) p).InterfFeasible I x)
    (known : SectorsKnown ⟨run {} ops, p⟩) (send : SendersDist ⟨run {} ops, p⟩)
    (hn : 0 < I.channels)
    (hf : ∀ e ∈ (Plan.mk (run {} ops) p).arcs, 0 ≤ flow e ∧ flow e ≤ x.flow e)
    (h : (Plan.mk (run {} ops) p).iExtract I.channels x flow common = .ok (some (sol, cost)))
    (node : ∀ k k' d d', (run {} ops).sectors.get? k = some d →
      (run {} ops).sectors.get? k' = some d' → d.site = d'.site → d.node = d'.node →
      sol.sector k = 1 → sol.sector k' = 1) :
    cost = planCost ⟨run {} ops, p⟩ sol := by
  have inv : (Plan.mk (run {} ops) p).t.Inv := Inv.empty.run ops
  obtain ⟨_, _, hsec, _, _⟩ := C95_consistent_partial ops p I x flow common sol cost feas known send
    hn hf h
  obtain ⟨hsol, hcost⟩ := Plan.iExtract_ok h
  have h01 : ∀ k d, (run {} ops).sectors.get? k = some d → sol.sector k = 0 ∨ sol.sector k = 1 := by
    intro k d hd
    rcases hsec k d hd with h1 | h1
    · exact .inr h1.1
    · exact .inl h1.1
  rw [hcost]
  refine Plan.extractCost_eq inv sol ?_ h01 ?_
  · intro s
    rw [hsol]
    change (if _ then (if _ then 1 else 0) else 0) = (0 : Int) ∨
      (if _ then (if _ then 1 else 0) else 0) = (1 : Int)
    split
    · split
      · exact .inr rfl
      · exact .inl rfl
    · exact .inl rfl
  · intro k k' d d' hd hd' e1 e2
    rcases h01 k d hd with h1 | h1 <;> rcases h01 k' d' hd' with h2 | h2
    · rw [h1, h2]
    · rw [node k' k d' d hd' hd e1.symm e2.symm h2] at h1; cases h1
    · rw [node k k' d d' hd hd' e1 e2 h1] at h2; cases h2
    · rw [h1, h2]

/-- The last hypothesis of `C97_cost_partial` holds on the example: both sectors of `P` are
selected, and the other nodes have one sector each. -/
example :
    let P : Plan := ⟨run {} interfDemo, interfDemoParams⟩
    let sol := P.iExtracted interfDemoIn.channels interfDemoVars interfDemoVars.flow
    (∀ e ∈ P.t.sectors, ∀ f ∈ P.t.sectors, e.2.site = f.2.site → e.2.node = f.2.node →
      sol.sector e.1 = 1 → sol.sector f.1 = 1) ∧
    sol.sector ⟨"P", 0, 0, .dn⟩ = 1 ∧ sol.sector ⟨"P", 0, 1, .dn⟩ = 1 := by
  decide +kernel

/-- **C97, violated.** A node of the proposed site `F` has an unused first sector and a used
second one. The plan builds the node, but its reported cost leaves the node out. -/
theorem C97_violation : ∃ (ops : List Op) (p : OptParams) (I : Interf) (x : IVars)
    (sol : Solution) (cost : ℚ),
    (Plan.mk (run {} ops) p).setupErr = none ∧
    (Plan.mk (run {} ops) p).InterfFeasible I x ∧
    (Plan.mk (run {} ops) p).iExtract I.channels x x.flow none = .ok (some (sol, cost)) ∧
    cost + (run {} ops).nodeCapex "F" = planCost ⟨run {} ops, p⟩ sol ∧
    0 < (run {} ops).nodeCapex "F" := by
  let d : Sector := { site := "F", node := 0, pos := 1 }
  let f : Site := { id := "F", siteType := .dn, status := .proposed, lat := 2, device := { nodeCapex := 5 } }
  let ops : List Op := interfDemo.take 2 ++ [Op.addSite f false] ++ (interfDemo.drop 3).take 2 ++
    [Op.addSector d] ++ interfDemo.drop 5
  let v : IVars := { interfDemoVars with
    sector := fun k c => if k = ⟨"F", 0, 1, .dn⟩ then 0 else interfDemoVars.sector k c }
  obtain ⟨cost, h, hcost⟩ := Plan.iExtract_of (P := ⟨run {} ops, interfDemoParams⟩)
    (n := interfDemoIn.channels) (x := v) (flow := v.flow)
    (common := none) (by decide +kernel)
  refine ⟨ops, interfDemoParams, interfDemoIn, v, _, cost, by decide +kernel,
    Plan.ICheck.sound (by decide +kernel), h, ?_, ?_⟩
  · rw [hcost]; decide +kernel
  · decide +kernel

end Verif
