import Verif.Props.Interf2

/-! # C92–C94: deployment guidelines, decided links and time in the interference phase -/

namespace Verif
open Topology Spec

namespace Plan
variable {P : Plan} {I : Interf} {x : IVars}

theorem fixedArc_arcOf (inv : P.t.Inv) {l : Link} (hl : l ∈ P.t.links.vals) :
    P.fixedArc (arcOf l) = true ↔ l.status = .existing := by
  unfold fixedArc
  rw [linkOf_arcOf inv hl]
  simp

theorem sector_typ (known : SectorsKnown P) {k : SectorId} {d : Sector}
    (hd : P.t.sectors.get? k = some d) : d.typ = .cn ↔ typeAt P d.site = some .cn := by
  obtain ⟨y, hy, hiff⟩ := known.typed k d hd
  unfold typeAt
  rw [hy, hiff]
  simp

/-- The receiving side of a chosen link is on the channel of the sending side. -/
theorem rxVar_eq (inv : P.t.Inv) (known : SectorsKnown P) (feas : P.InterfFeasible I x)
    (hn : 0 < I.channels) {l : Link} (hl : l ∈ chosen P x) {k1 k2 : SectorId}
    (hk : l.sectors = some (k1, k2)) {c : Nat} (hc : c < I.channels) (h1 : x.sector k1 c = 1) :
    P.rxVar I.channels x.toVars k2 c = 1 := by
  obtain ⟨s1, s2, _, _, same⟩ := chosen_ends inv known feas hn hl hk
  obtain ⟨hl0, _⟩ := List.mem_filter.1 hl
  obtain ⟨_, d2, hd2, e2⟩ := known.ends l hl0 k1 k2 hk
  unfold rxVar
  by_cases hcn : typeAt P l.rx = some .cn
  · have ht : d2.typ ≠ .dn := by
      have := (sector_typ known hd2).2 (e2 ▸ hcn)
      rw [this]; decide
    rw [sectorSum_cn hd2 ht hn] at s2
    split
    · rename_i h
      unfold hasSector at h
      rw [hd2] at h
      simp [ht] at h
      rw [h]; exact s2
    · exact s2
  · have ht : d2.typ = .dn := by
      cases h : d2.typ with
      | dn => rfl
      | cn => exact absurd (e2 ▸ (sector_typ known hd2).1 h) hcn
    rw [if_pos (hasSector_dn hd2 ht hc), ← same hcn c hc]
    exact h1

end Plan

/-- **C92.** Two links out of one site that are flagged as violating the angle guidelines
are, unless both are EXISTING, never chosen with their sending sectors on the same
channel; with a single channel they are never both chosen. -/
theorem C92_guidelines (ops : List Op) (p : OptParams) (I : Interf) (x : IVars)
    (feas : (Plan.mk (run {} ops) p).InterfFeasible I x)
    (known : SectorsKnown ⟨run {} ops, p⟩) (hn : 0 < I.channels) :
    let P : Plan := ⟨run {} ops, p⟩
    ∀ l ∈ chosen P x, ∀ m ∈ chosen P x, m.tx = l.tx → (l.tx, l.rx, m.rx) ∈ I.violating →
      ¬ (l.status = .existing ∧ m.status = .existing) →
      I.channels ≠ 1 ∧ ∀ k1 k2 q1 q2, l.sectors = some (k1, k2) → m.sectors = some (q1, q2) →
        ∀ c < I.channels, ¬ (x.sector k1 c = 1 ∧ x.sector q1 c = 1) := by
  intro P l hl m hm htx hv hst
  have inv : P.t.Inv := Inv.empty.run ops
  obtain ⟨hl0, hl1⟩ := List.mem_filter.1 hl
  obtain ⟨hm0, hm1⟩ := List.mem_filter.1 hm
  obtain ⟨rl, al⟩ := of_decide_eq_true hl1
  obtain ⟨rm, am⟩ := of_decide_eq_true hm1
  have el : arcOf l = (Loc.site l.tx, Loc.site l.rx) := rfl
  have em : arcOf m = (Loc.site l.tx, Loc.site m.rx) := by unfold arcOf; rw [htx]
  have ml := Plan.arcOf_mem (P := P) hl0
  have mm := Plan.arcOf_mem (P := P) hm0
  have hal := (Plan.hasActive_arcOf inv hl0).2 rl
  have ham := (Plan.hasActive_arcOf inv hm0).2 rm
  have ang := feas.angle (l.tx, l.rx, m.rx) hv
  dsimp only at ang
  rw [← el, ← em] at ang
  have ang := ang ml hal mm ham (by
    rw [Plan.fixedArc_arcOf inv hl0, Plan.fixedArc_arcOf inv hm0]
    exact hst)
  by_cases h1 : I.channels = 1
  · exfalso
    rw [if_pos h1, al, am] at ang
    norm_num at ang
  · refine ⟨h1, ?_⟩
    rw [if_neg h1] at ang
    intro k1 k2 q1 q2 hk hq c hc hboth
    have hdep : ∀ e, (e = arcOf l ∨ e = arcOf m) → P.hasDeploy I e = true := by
      intro e he
      unfold Plan.hasDeploy
      rw [List.any_eq_true]
      refine ⟨_, hv, ?_⟩
      rw [← el, ← em]
      simp only [Bool.and_eq_true, List.contains_iff_mem, Bool.or_eq_true, beq_iff_eq]
      exact ⟨⟨⟨⟨ml, hal⟩, mm⟩, ham⟩, he⟩
    have g1 := (feas.deployment h1 _ (hdep _ (.inl rfl)) c hc k1 k2
      (by rw [(Plan.sectors_arcOf inv hl0).1, hk]; rfl)
      (by rw [(Plan.sectors_arcOf inv hl0).2, hk]; rfl)).2.2.2.2
    have g2 := (feas.deployment h1 _ (hdep _ (.inr rfl)) c hc q1 q2
      (by rw [(Plan.sectors_arcOf inv hm0).1, hq]; rfl)
      (by rw [(Plan.sectors_arcOf inv hm0).2, hq]; rfl)).2.2.2.2
    rw [al, hboth.1, Plan.rxVar_eq inv known feas hn hl hk hc hboth.1] at g1
    rw [am, hboth.2, Plan.rxVar_eq inv known feas hn hm hq hc hboth.2] at g2
    have := ang c hc
    linarith

/-- In the example the flagged links `P → D` and `P → F` are both chosen, on different
channels. -/
example : let P : Plan := ⟨run {} interfDemo, interfDemoParams⟩
    ∃ l ∈ chosen P interfDemoVars, ∃ m ∈ chosen P interfDemoVars, m.tx = l.tx ∧
      (l.tx, l.rx, m.rx) ∈ interfDemoIn.violating ∧
      ¬ (l.status = .existing ∧ m.status = .existing) := by
  decide +kernel

/-- **C93.** An EXISTING radio link between live sites is chosen; a link that is UNAVAILABLE or UNREACHABLE is not chosen and carries nothing;
and chosen links between distribution sites join opposite polarities. -/
theorem C93_decided (ops : List Op) (p : OptParams) (I : Interf) (x : IVars)
    (feas : (Plan.mk (run {} ops) p).InterfFeasible I x) :
    let P : Plan := ⟨run {} ops, p⟩
    ∀ l ∈ P.t.links.vals,
      (l.status = .existing → Radio l → Live P l.tx → Live P l.rx → l ∈ chosen P x) ∧
      (l.status = .unavailable ∨ l.status = .unreachable →
        l ∉ chosen P x ∧ x.flow (arcOf l) = 0) ∧
      (P.p.ignorePolarities = false → l ∈ chosen P x → typeAt P l.tx ≠ some .cn →
        typeAt P l.rx ≠ some .cn → x.odd l.tx + x.odd l.rx = 1) := by
  intro P l hl
  have inv : P.t.Inv := Inv.empty.run ops
  have hm := Plan.arcOf_mem (P := P) hl
  obtain ⟨kt, kr⟩ := Plan.link_keys inv hl
  refine ⟨?_, ?_, ?_⟩
  · intro hs hr h1 h2
    have := (feas.decided.1 l.tx l.rx hm ((Plan.fixedArc_arcOf inv hl).2 hs)
      ((Plan.site_live inv feas kt).2 h1) ((Plan.site_live inv feas kr).2 h2)).1
      ((Plan.hasActive_arcOf inv hl).2 hr)
    exact List.mem_filter.2 ⟨hl, decide_eq_true ⟨hr, this⟩⟩
  · intro hs
    have hin : P.inactiveArc (arcOf l) = true := by
      unfold Plan.inactiveArc
      rw [Plan.linkOf_arcOf inv hl]
      rcases hs with h | h <;> simp [h, StatusType.inactive]
    refine ⟨?_, feas.inactiveFlow _ hm hin⟩
    intro hc
    obtain ⟨hr, ha⟩ := of_decide_eq_true (List.mem_filter.1 hc).2
    rw [feas.decided.2 _ hm hin ((Plan.hasActive_arcOf inv hl).2 hr)] at ha
    norm_num at ha
  · intro hi hc ht hr'
    obtain ⟨hr, ha⟩ := of_decide_eq_true (List.mem_filter.1 hc).2
    have hd : ∀ s, s ∈ P.t.sites.keys → typeAt P s ≠ some .cn → P.isDist (.site s) = true := by
      intro s hs h
      rw [Plan.isDist_iff]
      obtain ⟨y, hy⟩ := (Dict.mem_keys_iff _ _).1 hs
      unfold typeAt at h ⊢
      rw [hy] at h ⊢
      cases e : y.siteType <;> simp [e] at h ⊢
    by_cases hf : P.fixedArc (arcOf l) = true
    · have := feas.fixedPolarity hi l.tx l.rx hm hf (hd _ kt ht) (hd _ kr hr')
      rw [this]; ring
    · have := feas.polarity hi l.tx l.rx hm (Bool.not_eq_true _ ▸ hf) ((Plan.hasActive_arcOf inv hl).2 hr)
        (hd _ kt ht) (hd _ kr hr')
      change x.active (arcOf l) ≤ _ ∧ x.active (arcOf l) ≤ _ at this
      rw [ha] at this
      linarith [this.1, this.2]

/-- The example with an EXISTING link `P → D` and an UNREACHABLE link `D → G`. -/
example : ∃ ops, (Plan.mk (run {} ops) interfDemoParams).InterfFeasible interfDemoIn
      { interfDemoVars with
        active := fun e => if e = (.site "D", .site "G") then 0 else interfDemoVars.active e
        cls := fun e c i => if e = (.site "D", .site "G") then (if i = 2 then 1 else 0)
          else interfDemoVars.cls e c i
        pol := fun a e c => if a = "F" ∧ e = (.site "D", .site "C") ∧ c = 1 then 1/2
          else interfDemoVars.pol a e c } ∧
    (∃ l ∈ (run {} ops).links.vals, l.status = .existing ∧ Radio l) ∧
    (∃ l ∈ (run {} ops).links.vals, l.status = .unreachable) := by
  refine ⟨interfDemo ++ [
    .addLink { tx := "P", rx := "D", capacity := 4, status := .existing,
               sectors := some (⟨"P", 0, 0, .dn⟩, ⟨"D", 0, 0, .dn⟩) },
    .addLink { tx := "D", rx := "G", capacity := 2, status := .unreachable,
               sectors := some (⟨"D", 1, 0, .dn⟩, ⟨"G", 0, 0, .cn⟩) }],
    Plan.ICheck.sound (by decide +kernel), by decide +kernel, by decide +kernel⟩

/-- **C94.** Time on a radio is not oversold, over all channels together: the links sent
by a sector of a distribution site take at most all of its time, so do the links it
hears, both only on the channel of the sector; and the radio links that a CN
hears take at most all of its time. -/
theorem C94_time (ops : List Op) (p : OptParams) (I : Interf) (x : IVars)
    (feas : (Plan.mk (run {} ops) p).InterfFeasible I x)
    (known : SectorsKnown ⟨run {} ops, p⟩) (hn : 0 < I.channels) :
    let P : Plan := ⟨run {} ops, p⟩
    (∀ k d, P.t.sectors.get? k = some d → typeAt P d.site ≠ some .cn →
      (∀ c < I.channels,
        ((sentBy P d.site k).map fun l => x.tdm (arcOf l) c).sum ≤ x.sector k c ∧
        ((heardBy P d.site k).map fun l => x.tdm (arcOf l) c).sum ≤ x.sector k c) ∧
      ((List.range I.channels).map fun c =>
        ((sentBy P d.site k).map fun l => x.tdm (arcOf l) c).sum).sum ≤ 1 ∧
      ((List.range I.channels).map fun c =>
        ((heardBy P d.site k).map fun l => x.tdm (arcOf l) c).sum).sum ≤ 1) ∧
    (∀ s, typeAt P s = some .cn →
      ((List.range I.channels).map fun c =>
        ((P.t.links.vals.filter fun l => Radio l ∧ l.rx = s).map
          fun l => x.tdm (arcOf l) c).sum).sum ≤ 1) := by
  intro P
  have inv : P.t.Inv := Inv.empty.run ops
  constructor
  · intro k d hd hcn
    have ht : d.typ = .dn := by
      cases h : d.typ with
      | dn => rfl
      | cn => exact absurd ((Plan.sector_typ known hd).1 h) hcn
    have hper := fun c (hc : c < I.channels) =>
      Plan.time_le inv feas hd hc (Plan.hasSector_dn hd ht hc)
    have hsum : ((List.range I.channels).map fun c => x.sector k c).sum ≤ 1 := by
      have := Plan.sectorSum_le_one feas hd hn
      rw [Plan.sectorSum_dn hd ht] at this
      rcases this with h | h <;> rw [h] <;> norm_num
    refine ⟨hper, ?_, ?_⟩
    · refine le_trans (List.sum_le_sum ?_) hsum
      intro c hc
      exact (hper c (List.mem_range.1 hc)).1
    · refine le_trans (List.sum_le_sum ?_) hsum
      intro c hc
      exact (hper c (List.mem_range.1 hc)).2
  · intro s hs
    rw [Plan.sum_swap]
    have hc := Plan.chosen_count inv feas.active (fun e => decide (e.2 = .site s))
    have hperm := Plan.arcs_perm inv (fun e => decide (e.2 = .site s))
    have h1 : ((P.t.links.vals.filter fun l => Radio l ∧ l.rx = s).map
        fun l => ((List.range I.channels).map fun c => x.tdm (arcOf l) c).sum).sum ≤
        ((P.t.links.vals.filter fun l => Radio l ∧ l.rx = s).map fun l => x.active (arcOf l)).sum := by
      apply List.sum_le_sum
      intro l hl
      obtain ⟨hl0, hl1⟩ := List.mem_filter.1 hl
      obtain ⟨hr, _⟩ := of_decide_eq_true hl1
      exact feas.tdmLink hn _ (Plan.arcOf_mem hl0) ((Plan.hasActive_arcOf inv hl0).2 hr)
    refine h1.trans ?_
    have h2 : ((P.t.links.vals.filter fun l => Radio l ∧ l.rx = s).map fun l => x.active (arcOf l)).sum
        = (((P.incoming (.site s)).filter P.hasActive).map x.active).sum := by
      have e1 : (P.incoming (.site s)).filter P.hasActive =
          P.arcs.filter (fun e => P.hasActive e && decide (e.2 = .site s)) := by
        unfold Plan.incoming
        rw [List.filter_filter]
      rw [e1, (hperm.map x.active).sum_eq, List.map_map]
      congr 1
      have e2 : P.t.links.vals.filter (fun l => Radio l ∧ l.rx = s) =
          P.t.links.vals.filter (fun l => Radio l ∧ decide ((arcOf l).2 = .site s) = true) := by
        apply List.filter_congr
        intro l _
        simp [arcOf]
      rw [e2]
      rfl
    rw [h2]
    by_cases he : (P.incoming (.site s)).filter P.hasActive = []
    · rw [he]; simp
    · exact feas.cnLinks s hs he

example : SectorsKnown ⟨run {} interfDemo, interfDemoParams⟩ ∧
    (sentBy ⟨run {} interfDemo, interfDemoParams⟩ "F" ⟨"F", 1, 0, .dn⟩).length = 2 ∧
    typeAt ⟨run {} interfDemo, interfDemoParams⟩ "F" = some .dn ∧
    typeAt ⟨run {} interfDemo, interfDemoParams⟩ "C" = some .cn :=
  ⟨interfDemo_known, by decide +kernel, by decide +kernel, by decide +kernel⟩

/-- **C41, interference phase.** Also with several channels the flow on a radio link is at most its capacity times its
time share over all channels, the flow on a wire at most its capacity, and a sector of a distribution site has air time
only on channels it is on, at most all of it, and none if its site is not built; then nothing is sent or heard over a
radio link at the site. In terms of traffic: the sums of flow over capacity of the links that a sector sends and of
those that it hears are at most 1. -/
theorem C41_interference (ops : List Op) (p : OptParams) (I : Interf) (x : IVars)
    (feas : (Plan.mk (run {} ops) p).InterfFeasible I x)
    (known : SectorsKnown ⟨run {} ops, p⟩) (hn : 0 < I.channels) :
    let P : Plan := ⟨run {} ops, p⟩
    (∀ l ∈ P.t.links.vals, l.isWireless = true →
      x.flow (arcOf l) ≤ l.capacity * ((List.range I.channels).map fun c => x.tdm (arcOf l) c).sum ∧
      ∀ c < I.channels, 0 ≤ x.tdm (arcOf l) c ∧ x.tdm (arcOf l) c ≤ 1) ∧
    (∀ l ∈ P.t.links.vals, l.isWireless = false → x.flow (arcOf l) ≤ l.capacity) ∧
    (∀ k d, P.t.sectors.get? k = some d → typeAt P d.site ≠ some .cn →
      (∀ c < I.channels,
        ((sentBy P d.site k).map fun l => x.tdm (arcOf l) c).sum ≤ x.sector k c ∧
        ((heardBy P d.site k).map fun l => x.tdm (arcOf l) c).sum ≤ x.sector k c ∧
        (x.site d.site = 0 → x.sector k c = 0)) ∧
      (((sentBy P d.site k).filter fun l => l.capacity > 0).map fun l => x.flow (arcOf l) / l.capacity).sum ≤ 1 ∧
      (((heardBy P d.site k).filter fun l => l.capacity > 0).map fun l => x.flow (arcOf l) / l.capacity).sum ≤ 1) ∧
    (∀ l ∈ P.t.links.vals, l.isWireless = true → (x.site l.tx = 0 ∨ x.site l.rx = 0) → x.flow (arcOf l) = 0) := by
  intro P
  have inv : P.t.Inv := Inv.empty.run ops
  have h1 : ∀ l ∈ P.t.links.vals, l.isWireless = true →
      x.flow (arcOf l) ≤ l.capacity * ((List.range I.channels).map fun c => x.tdm (arcOf l) c).sum ∧
      ∀ c < I.channels, 0 ≤ x.tdm (arcOf l) c ∧ x.tdm (arcOf l) c ≤ 1 := by
    intro l hl hw
    have ha := Plan.arcOf_mem (P := P) hl
    have ht := (Plan.hasTdm_arcOf inv hl).trans hw
    have h := feas.tdmFlow _ ha
    rw [if_pos ⟨ht, hn⟩, Plan.cap_arcOf inv hl] at h
    exact ⟨h, fun c hc => feas.bounds.tdm _ ha ht c hc⟩
  have key : ∀ L : List Link, (∀ l ∈ L, l ∈ P.t.links.vals ∧ l.isWireless = true) →
      ((L.filter (fun l => l.capacity > 0)).map (fun l => x.flow (arcOf l) / l.capacity)).sum ≤
        (L.map fun l => ((List.range I.channels).map fun c => x.tdm (arcOf l) c).sum).sum := by
    intro L
    induction L with
    | nil => intro _; simp
    | cons a L ih =>
      intro h
      have ih := ih (fun l hl => h l (by simp [hl]))
      obtain ⟨ha, hw⟩ := h a (by simp)
      obtain ⟨f1, f2⟩ := h1 a ha hw
      have f3 : 0 ≤ ((List.range I.channels).map fun c => x.tdm (arcOf a) c).sum := by
        apply List.sum_nonneg
        intro q hq
        obtain ⟨c, hc, rfl⟩ := List.mem_map.1 hq
        exact (f2 c (List.mem_range.1 hc)).1
      by_cases c : a.capacity > 0
      · simp only [List.filter_cons, c, decide_true, if_true, List.map_cons, List.sum_cons]
        have : x.flow (arcOf a) / a.capacity ≤ ((List.range I.channels).map fun c => x.tdm (arcOf a) c).sum := by
          rw [div_le_iff₀ c]; linarith [mul_comm a.capacity ((List.range I.channels).map fun c => x.tdm (arcOf a) c).sum]
        linarith
      · simp only [List.filter_cons, c, decide_false, List.map_cons, List.sum_cons]
        simp only [Bool.false_eq_true, if_false]
        linarith
  refine ⟨h1, ?_, ?_, ?_⟩
  · intro l hl hw
    have ht := (Plan.hasTdm_arcOf inv hl).trans hw
    have h := feas.tdmFlow _ (Plan.arcOf_mem (P := P) hl)
    rw [if_neg (by rw [ht]; simp), Plan.cap_arcOf inv hl] at h
    exact h.trans (min_le_left _ _)
  · intro k d hd hcn
    obtain ⟨g1, g2, g3⟩ := (C94_time ops p I x feas known hn).1 k d hd hcn
    have ht : d.typ = .dn := by
      cases h : d.typ with
      | dn => rfl
      | cn => exact absurd ((Plan.sector_typ known hd).1 h) hcn
    refine ⟨?_, ?_, ?_⟩
    · intro c hc
      refine ⟨(g1 c hc).1, (g1 c hc).2, ?_⟩
      intro h0
      obtain ⟨y, hy⟩ := inv.sector_site k d hd
      have hs := feas.sectorSite k d hd ((Dict.mem_keys_iff _ _).2 ⟨y, hy⟩)
      rw [h0, Plan.sectorSum_dn hd ht] at hs
      have hb : ∀ c ∈ List.range I.channels, 0 ≤ x.sector k c := by
        intro c hc
        rcases feas.sector k c (List.mem_range.1 hc) (Plan.hasSector_dn hd ht (List.mem_range.1 hc)) with h | h <;>
          rw [h]
        norm_num
      refine le_antisymm (le_trans ?_ hs) (hb c (List.mem_range.2 hc))
      exact List.single_le_sum (l := (List.range I.channels).map fun c => x.sector k c)
        (by intro q hq; obtain ⟨c, hc, rfl⟩ := List.mem_map.1 hq; exact hb c hc) _
        (List.mem_map.2 ⟨c, List.mem_range.2 hc, rfl⟩)
    · refine (key _ ?_).trans ?_
      · intro l hl
        unfold sentBy at hl
        rw [List.mem_filter, decide_eq_true_eq] at hl
        exact ⟨hl.1, hl.2.2.1⟩
      · rw [← Plan.sum_swap]
        exact g2
    · refine (key _ ?_).trans ?_
      · intro l hl
        unfold heardBy at hl
        rw [List.mem_filter, decide_eq_true_eq] at hl
        exact ⟨hl.1, hl.2.2.1⟩
      · rw [← Plan.sum_swap]
        exact g3
  · intro l hl hw h0
    by_contra hne
    have hpos : 0 < x.flow (arcOf l) := lt_of_le_of_ne (feas.bounds.flow _ (Plan.arcOf_mem (P := P) hl)) (Ne.symm hne)
    obtain ⟨_, q1, q2⟩ := C91_radio_partial ops p I x feas known hn l hl hw hpos
    have one : ∀ s, Live P s → x.site s ≠ 0 := by
      intro s hs
      have hl := (Plan.liveSite_iff inv.nd_sites s).2 hs
      obtain ⟨y, hy, _⟩ := hs
      rw [feas.site s ((Dict.mem_keys_iff _ _).2 ⟨y, hy⟩), if_pos hl]
      norm_num
    rcases h0 with h | h
    · exact one _ q1 h
    · exact one _ q2 h

/-- A feasible solution with traffic on a radio link. -/
example : (Plan.mk (run {} interfDemo) interfDemoParams).InterfFeasible interfDemoIn interfDemoVars ∧
    SectorsKnown ⟨run {} interfDemo, interfDemoParams⟩ ∧ 1 < interfDemoIn.channels ∧
    ∃ l ∈ (run {} interfDemo).links.vals, l.isWireless = true ∧ 0 < interfDemoVars.flow (arcOf l) :=
  ⟨Plan.ICheck.sound (by decide +kernel), interfDemo_known, by decide +kernel, by decide +kernel⟩

end Verif
