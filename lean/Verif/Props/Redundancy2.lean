import Verif.Props.Redundancy
import Verif.Props.Extract2
import Verif.Props.Colocate

/-! # The plan read off the redundancy problem -/

namespace Verif
namespace Plan

open Topology Spec

variable {P : Plan} {r : RedParams} {restr : Option (List (SiteId × SiteId))} {x : RVars}

theorem redDist_cases (s : SiteId) : P.redDist restr x s = 0 ∨ P.redDist restr x s = 1 := by
  unfold redDist
  split
  · exact bin_cases _
  · split <;> simp

theorem redDec_cases (s : SiteId) : P.redDec restr x s = 0 ∨ P.redDec restr x s = 1 := by
  unfold redDec
  split
  · exact redDist_cases s
  split
  · exact .inl rfl
  split
  · exact .inr rfl
  split
  · exact .inl rfl
  · exact .inr rfl

theorem redOddRaw_cases (s : SiteId) : P.redOddRaw restr x s = 0 ∨ P.redOddRaw restr x s = 1 := by
  unfold redOddRaw
  split
  · exact bin_cases _
  · split <;> simp

theorem redSolution_site {s : SiteId} {y : Site} (h : P.t.sites.get? s = some y) :
    (P.redSolution restr x).site s = P.redDec restr x s := by
  change (if P.t.sites.has s then P.redDec restr x s else 0) = _
  rw [if_pos ((Dict.has_iff _ _).2 ⟨y, h⟩)]

theorem redSolution_sector {k : SectorId} {d : Sector} (h : P.t.sectors.get? k = some d) :
    (P.redSolution restr x).sector k = P.redDec restr x d.site := by
  change (match P.t.sectors.get? k with
    | some d => P.redDec restr x d.site
    | none => 0) = _
  rw [h]

theorem redSolution_channel {k : SectorId} {d : Sector} (h : P.t.sectors.get? k = some d) :
    (P.redSolution restr x).channel k = if P.redDec restr x d.site = 1 then 0 else -1 := by
  change (match P.t.sectors.get? k with
    | some d => if P.redDec restr x d.site = 1 then 0 else -1
    | none => -1) = _
  rw [h]

theorem redLink_of {i : LinkId} (h : (P.redSolution restr x).link i = 1) :
    P.redLink restr x i.tx i.rx = true := by
  change (if P.arcs.contains (.site i.tx, .site i.rx) && P.redLink restr x i.tx i.rx then
    (1 : Int) else 0) = 1 at h
  split at h
  · rename_i c
    rw [Bool.and_eq_true] at c
    exact c.2
  · cases h

theorem redCand_of {a b : SiteId} (h : P.redLink restr x a b = true) :
    P.inactiveArc (.site a, .site b) = false ∧ 0 < P.cap (.site a, .site b) ∧
    P.redPolOk restr x a b = true ∧ P.redDec restr x a = 1 ∧ P.redDec restr x b = 1 ∧
    (P.isWired (.site a, .site b) = true ∨
      (P.txSector (.site a, .site b)).any (fun k => P.redSector restr x a k == 1) = true ∧
      (P.rxSector (.site a, .site b)).any (fun k => P.redSector restr x b k == 1) = true) := by
  unfold redLink redCand at h
  simp only [Bool.and_eq_true, Bool.or_eq_true, Bool.not_eq_true', decide_eq_true_eq, beq_iff_eq] at h
  obtain ⟨⟨⟨⟨⟨h1, h2⟩, h3⟩, h4⟩, h5⟩, h6⟩ := h
  exact ⟨h1, h2, h3, h4, h5, h6⟩

theorem redSector_of {s : SiteId} {k : SectorId} (h : P.redSector restr x s k = 1) :
    ∃ d, P.t.sectors.get? k = some d ∧ d.site = s ∧ P.redDec restr x s = 1 := by
  unfold redSector at h
  split at h
  · rename_i c
    rw [Option.any_eq_true] at c
    obtain ⟨d, hd, e⟩ := c
    exact ⟨d, hd, by simpa using e, h⟩
  · cases h

theorem isDist_iff' {s : SiteId} {y : Site} (h : P.t.sites.get? s = some y) :
    P.isDist (.site s) = true ↔ y.siteType ≠ .cn := by
  unfold isDist siteType?
  dsimp only
  rw [h, Option.map_some, Option.any_some]
  cases y.siteType <;> simp [SiteType.isDist]

/-- The polarity of a selected DN or POP. -/
theorem redPol_dist {s : SiteId} (hi : P.p.ignorePolarities = false) (hd : P.isDist (.site s) = true)
    (h1 : P.redDec restr x s = 1) :
    P.redOdd restr x s = P.redOddRaw restr x s ∧ P.redEven restr x s = 1 - P.redOddRaw restr x s := by
  unfold redOdd redEven
  rw [hi, hd, h1]
  simp

theorem red_polarity {a b : SiteId} (hi : P.p.ignorePolarities = false)
    (ha : P.isDist (.site a) = true) (hb : P.isDist (.site b) = true)
    (h1 : P.redDec restr x a = 1) (h2 : P.redDec restr x b = 1)
    (hne : P.redOddRaw restr x a ≠ P.redOddRaw restr x b) :
    (P.redOdd restr x a = 1 ∧ P.redEven restr x b = 1) ∨
    (P.redEven restr x a = 1 ∧ P.redOdd restr x b = 1) := by
  obtain ⟨a1, a2⟩ := redPol_dist (restr := restr) (x := x) hi ha h1
  obtain ⟨b1, b2⟩ := redPol_dist (restr := restr) (x := x) hi hb h2
  rw [a1, a2, b1, b2]
  rcases redOddRaw_cases (P := P) (restr := restr) (x := x) a with h | h <;>
    rcases redOddRaw_cases (P := P) (restr := restr) (x := x) b with h' | h' <;> rw [h, h'] at hne ⊢ <;>
    simp at hne ⊢

theorem redDec_dist {s : SiteId} (hd : P.isDist (.site s) = true) :
    P.redDec restr x s = P.redDist restr x s := by
  unfold redDec; rw [if_pos hd]

theorem keys_of {s : SiteId} {y : Site} (h : P.t.sites.get? s = some y) : s ∈ P.t.sites.keys :=
  (Dict.mem_keys_iff _ _).2 ⟨y, h⟩

theorem isActive_of {s : SiteId} {y : Site} (h : P.t.sites.get? s = some y) :
    P.isActive s = true ↔ y.status = .proposed ∨ y.status = .existing := by
  unfold isActive statusOf siteStatus
  rw [h, Option.map_some, Option.any_some]
  cases y.status <;> simp [StatusType.active]

theorem isInactive_of {s : SiteId} {y : Site} (h : P.t.sites.get? s = some y) :
    P.isInactive s = true ↔ y.status = .unavailable ∨ y.status = .unreachable := by
  unfold isInactive statusOf siteStatus
  rw [h, Option.map_some, Option.any_some]
  cases y.status <;> simp [StatusType.inactive]

theorem isPop_of {s : SiteId} {y : Site} (h : P.t.sites.get? s = some y) :
    P.isPop (.site s) = true ↔ y.siteType = .pop := by
  unfold isPop siteType?
  dsimp only
  rw [h, Option.map_some, beq_iff_eq, Option.some_inj]

/-- Every POP is in the problem: the supersource feeds it. -/
theorem redSite_pop (inv : P.t.Inv) (hcap : 0 < P.p.popCapacity) {s : SiteId} {y : Site}
    (h : P.t.sites.get? s = some y) (hp : y.siteType = .pop) : P.redSite restr (.site s) = true := by
  have hm : ((Loc.source, Loc.site s) : Arc) ∈ P.arcs :=
    mem_arcs.2 (.inl ⟨s, y, Dict.mem_of_get? _ h, hp, rfl⟩)
  refine redSite_iff.2 ⟨(.source, .site s), mem_redArcs.2 ⟨hm, ?_, rfl, ?_, ?_⟩, .inr rfl⟩
  · rw [cap_source hm]; exact hcap
  · exact (isDist_iff' h).2 (by rw [hp]; simp)
  · simp

/-- Decision for a DN or POP in use. -/
theorem red_keeps (feas : P.RedFeasible r restr x) {s : SiteId} {y : Site} (h : P.t.sites.get? s = some y)
    (hd : y.siteType ≠ .cn) (ha : y.status = .proposed ∨ y.status = .existing) :
    P.redDec restr x s = 1 := by
  rw [redDec_dist ((isDist_iff' h).2 hd)]
  have hact := (isActive_of h).2 ha
  unfold redDist
  split
  · rename_i hr
    have := feas.decided s (keys_of h) hr
    rw [if_pos hact] at this
    rw [this]; decide +kernel
  · unfold keptActive
    rw [hact]; rfl

/-- A link of the problem has different polarities at its ends if it is in use. -/
theorem red_active_polarity (rdy : P.Ready) (feas : P.RedFeasible r restr x) {a b : SiteId}
    (hi : P.p.ignorePolarities = false) (he : (Loc.site a, Loc.site b) ∈ P.redArcs restr)
    (hw : P.isWired (.site a, .site b) = false) (ha : P.inputActive (.site a, .site b) = true) :
    P.redOddRaw restr x a ≠ P.redOddRaw restr x b := by
  obtain ⟨m1, _, m3, m4, _⟩ := mem_redArcs.1 he
  have ra : P.redSite restr (.site a) = true := redSite_iff.2 ⟨_, he, .inl rfl⟩
  have rb : P.redSite restr (.site b) = true := redSite_iff.2 ⟨_, he, .inr rfl⟩
  have hp := feas.polarity hi a b he hw
  rw [if_pos ha] at hp
  have o := feas.odd hi b (key_of_mem rdy m1 (.inr rfl)) rb m4
  unfold redOddRaw
  rw [if_pos ra, if_pos rb, hp]
  rcases o with o | o <;> rw [o] <;> decide +kernel

end Plan

open Plan Topology Spec

/-- **C99.** The plan of the redundancy phase is consistent and only adds to the network:

* a selected link joins selected sites, is not ruled out and has capacity; a selected radio link
  has both its sectors selected, on one channel, and DNs or POPs of opposite polarity at its ends
  (for links in use before, if they are in the link pool);
* a sector is selected exactly if its site is, on channel 0;
* a site has at most one polarity, and only if selected;
* a DN or POP in use stays selected; a POP not in use is not added;
* writing the plan back raises no exception, if nothing open is attached to ruled-out sites. -/
theorem C99_consistent (ops : List Op) (p : OptParams) (r : RedParams)
    (restr : Option (List (SiteId × SiteId))) (x : RVars)
    (ok : (Plan.mk (run {} ops) p).redErr restr = none)
    (feas : (Plan.mk (run {} ops) p).RedFeasible r restr x) :
    let t := run {} ops
    let sol := (Plan.mk t p).redSolution restr x
    (∀ l ∈ t.links.vals, sol.link l.id = 1 →
      sol.site l.tx = 1 ∧ sol.site l.rx = 1 ∧ l.status.inactive = false ∧ 0 < l.capacity ∧
      (l.isWireless = true →
        (∃ a b, l.sectors = some (a, b) ∧ sol.sector a = 1 ∧ sol.sector b = 1 ∧
          sol.channel a = sol.channel b) ∧
        (p.ignorePolarities = false → ∀ y z, t.sites.get? l.tx = some y →
          t.sites.get? l.rx = some z → y.siteType ≠ .cn → z.siteType ≠ .cn →
          l.status = .candidate ∨ restr = none ∨ (l.tx, l.rx) ∈ restr.getD [] →
          (sol.odd l.tx = 1 ∧ sol.even l.rx = 1) ∨ (sol.even l.tx = 1 ∧ sol.odd l.rx = 1)))) ∧
    (∀ k d, t.sectors.get? k = some d → sol.sector k = sol.site d.site ∧
      (sol.sector k = 1 → sol.channel k = 0)) ∧
    (∀ s, ¬ (sol.odd s = 1 ∧ sol.even s = 1) ∧ ((sol.odd s = 1 ∨ sol.even s = 1) → sol.site s = 1)) ∧
    (∀ s y, t.sites.get? s = some y → y.siteType ≠ .cn →
      ((y.status = .proposed ∨ y.status = .existing) → sol.site s = 1) ∧
      (0 < p.popCapacity → y.siteType = .pop → y.status ≠ .proposed → y.status ≠ .existing →
        sol.site s = 0)) ∧
    (NothingOpenOnRuledOut t → ∃ t', updateWithSolution sol t = some (t', none)) := by
  intro t sol
  have inv : Topology.Inv (run {} ops) := Inv.empty.run ops
  set P : Plan := ⟨run {} ops, p⟩ with hP
  have invP : P.t.Inv := inv
  have rdy : P.Ready := by
    unfold redErr at ok
    cases hset : P.setupErr with
    | some e => rw [hset] at ok; cases ok
    | none => exact ready hset
  have c1 : ∀ l ∈ t.links.vals, sol.link l.id = 1 →
      sol.site l.tx = 1 ∧ sol.site l.rx = 1 ∧ l.status.inactive = false ∧ 0 < l.capacity ∧
      (l.isWireless = true →
        (∃ a b, l.sectors = some (a, b) ∧ sol.sector a = 1 ∧ sol.sector b = 1 ∧
          sol.channel a = sol.channel b) ∧
        (p.ignorePolarities = false → ∀ y z, t.sites.get? l.tx = some y →
          t.sites.get? l.rx = some z → y.siteType ≠ .cn → z.siteType ≠ .cn →
          l.status = .candidate ∨ restr = none ∨ (l.tx, l.rx) ∈ restr.getD [] →
          (sol.odd l.tx = 1 ∧ sol.even l.rx = 1) ∨ (sol.even l.tx = 1 ∧ sol.odd l.rx = 1))) := by
    intro l hl hs
    have el : P.linkOf (.site l.tx, .site l.rx) = some l := linkOf_arcOf invP hl
    have cl : P.cap (.site l.tx, .site l.rx) = l.capacity := cap_arcOf invP hl
    obtain ⟨g1, g2, g3, g4, g5, g6⟩ := redCand_of (redLink_of hs)
    change P.inactiveArc (.site l.tx, .site l.rx) = false at g1
    change 0 < P.cap (.site l.tx, .site l.rx) at g2
    change P.redPolOk restr x l.tx l.rx = true at g3
    change P.redDec restr x l.tx = 1 at g4
    change P.redDec restr x l.rx = 1 at g5
    obtain ⟨ya, hya⟩ := invP.link_tx _ l (show P.t.links.get? ⟨l.tx, l.rx⟩ = some l from el)
    obtain ⟨yb, hyb⟩ := invP.link_rx _ l (show P.t.links.get? ⟨l.tx, l.rx⟩ = some l from el)
    have g1' := g1
    unfold inactiveArc at g1'
    rw [el, Option.any_some, Bool.or_eq_false_iff] at g1'
    refine ⟨(redSolution_site hya).trans g4, (redSolution_site hyb).trans g5, g1'.1, by rw [← cl]; exact g2, ?_⟩
    intro hw
    have hnw : P.isWired (.site l.tx, .site l.rx) = false := by
      unfold isWired; simp only [el, Option.any_some, hw]; rfl
    constructor
    · rcases g6 with g6 | ⟨g6, g7⟩
      · have : P.isWired (.site l.tx, .site l.rx) = true := g6
        rw [hnw] at this; cases this
      change (P.txSector (.site l.tx, .site l.rx)).any (fun k => P.redSector restr x l.tx k == 1) = true at g6
      change (P.rxSector (.site l.tx, .site l.rx)).any (fun k => P.redSector restr x l.rx k == 1) = true at g7
      rw [Option.any_eq_true] at g6 g7
      obtain ⟨a, ha, ha'⟩ := g6
      obtain ⟨b, hb, hb'⟩ := g7
      unfold txSector at ha
      unfold rxSector at hb
      rw [el, Option.bind_some, Option.map_eq_some_iff] at ha hb
      obtain ⟨q, hq, rfl⟩ := ha
      obtain ⟨q', hq', rfl⟩ := hb
      rw [hq] at hq'; cases hq'
      obtain ⟨d1, hd1, e1, _⟩ := redSector_of (by simpa using ha')
      obtain ⟨d2, hd2, e2, _⟩ := redSector_of (by simpa using hb')
      refine ⟨q.1, q.2, hq, ?_, ?_, ?_⟩
      · exact (redSolution_sector hd1).trans (by rw [e1]; exact g4)
      · exact (redSolution_sector hd2).trans (by rw [e2]; exact g5)
      · refine (redSolution_channel hd1).trans (Eq.trans ?_ (redSolution_channel hd2).symm)
        rw [e1, e2, g4, g5]
    · intro hi y z hy hz hyt hzt hc
      have hda := (isDist_iff' (P := P) hy).2 hyt
      have hdb := (isDist_iff' (P := P) hz).2 hzt
      refine red_polarity (P := P) hi hda hdb g4 g5 ?_
      by_cases hac : P.inputActive (.site l.tx, .site l.rx) = true
      · have hm : ((Loc.site l.tx, Loc.site l.rx) : Arc) ∈ P.redArcs restr := by
          refine mem_redArcs.2 ⟨arcOf_mem hl, g2, hda, hdb, ?_⟩
          rcases hc with hc | hc | hc
          · exfalso
            unfold inputActive at hac
            rw [el, Option.any_some, hc] at hac
            cases hac
          · exact .inl hc
          · exact .inr (.inr (.inr ⟨_, _, rfl, hc⟩))
        exact red_active_polarity rdy feas hi hm hnw hac
      · unfold redPolOk at g3
        have hac : P.inputActive (.site l.tx, .site l.rx) = false := by simpa using hac
        rw [hac, hnw, hda, hdb, show P.p.ignorePolarities = false from hi] at g3
        have g3' : P.redOdd restr x l.tx ≠ P.redOdd restr x l.rx := by simpa using g3
        rwa [(redPol_dist (P := P) hi hda g4).1, (redPol_dist (P := P) hi hdb g5).1] at g3'
  have c2 : ∀ k d, t.sectors.get? k = some d → sol.sector k = sol.site d.site ∧
      (sol.sector k = 1 → sol.channel k = 0) := by
    intro k d hk
    obtain ⟨y, hy⟩ := invP.sector_site k d hk
    have h1 : sol.sector k = P.redDec restr x d.site := redSolution_sector (P := P) hk
    have h2 : sol.channel k = if P.redDec restr x d.site = 1 then 0 else -1 := redSolution_channel (P := P) hk
    refine ⟨h1.trans (redSolution_site hy).symm, fun h => ?_⟩
    rw [h2, ← h1, if_pos h]
  have c3 : ∀ s, ¬ (sol.odd s = 1 ∧ sol.even s = 1) ∧ ((sol.odd s = 1 ∨ sol.even s = 1) → sol.site s = 1) := by
    intro s
    have ho : sol.odd s = P.redOdd restr x s := rfl
    have he : sol.even s = P.redEven restr x s := rfl
    rw [ho, he]
    unfold redOdd redEven
    split
    · simp
    · rename_i hc
      simp only [Bool.or_eq_true, Bool.not_eq_true', decide_eq_true_eq, not_or] at hc
      obtain ⟨⟨_, hd⟩, h0⟩ := hc
      have hd : P.isDist (.site s) = true := by simpa using hd
      obtain ⟨y, hy⟩ := (Dict.mem_keys_iff _ _).1 (isDist_key hd)
      have h1 := (redDec_cases (P := P) (restr := restr) (x := x) s).resolve_left h0
      refine ⟨fun h => by omega, fun _ => (redSolution_site hy).trans h1⟩
  refine ⟨c1, c2, c3, ?_, ?_⟩
  · intro s y hy hd
    have e : sol.site s = P.redDec restr x s := redSolution_site (P := P) hy
    rw [e]
    refine ⟨red_keeps feas hy hd, fun hcap hp n1 n2 => ?_⟩
    have hr := redSite_pop (restr := restr) invP hcap hy hp
    have hna : ¬ P.isActive s = true := fun c => by
      rcases (isActive_of (P := P) hy).1 c with c | c
      · exact n1 c
      · exact n2 c
    have h0 := feas.decided s (keys_of (P := P) hy) hr
    rw [if_neg hna, if_pos ((isPop_of (P := P) hy).2 hp), ite_self] at h0
    rw [redDec_dist ((isDist_iff' (P := P) hy).2 hd)]
    unfold redDist
    rw [if_pos hr, h0]
    decide +kernel
  · intro hno
    have calm := calm_of inv hno
    obtain ⟨t1, h1, k1⟩ := apply_total (sol := sol) calm (fun s => (c3 s).1)
      (fun k d hk hs => (c2 k d hk).1.symm.trans hs)
      (fun i l hl hs => by
        have hm : l ∈ (run {} ops).links.vals := List.mem_map.2 ⟨(i, l), Dict.mem_of_get? _ hl, rfl⟩
        have hid : l.id = i := (inv.link_id i l hl).symm
        obtain ⟨h1, h2, _⟩ := c1 l hm (by rw [hid]; exact hs)
        exact ⟨h1, h2⟩)
    have inv1 : Topology.Inv t1 := by
      have := inv_applySolution sol inv
      rw [h1] at this; exact this
    obtain ⟨t2, h2, _⟩ := remove_total inv1 (calm.mono k1)
    refine ⟨t2, ?_⟩
    unfold updateWithSolution
    rw [h1]
    exact h2

end Verif
