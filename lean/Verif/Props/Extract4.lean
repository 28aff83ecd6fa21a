import Verif.Props.Extract3

/-! # C87: what the input already decided stays in the extracted plan -/

namespace Verif
open Topology Spec

namespace Plan
variable {P : Plan} {x : Vars} {flow : Arc → ℚ}

theorem siteDec_kept {s : SiteId} (hk : P.keptActive s = true) (h1 : x.site s = 1) :
    P.siteDec x flow s = 1 := by
  have hb : bin (x.site s) = 1 := by rw [h1]; unfold bin eps; norm_num
  unfold siteDec
  rw [hk, hb]
  simp

/-- A selected arc of the extracted plan. -/
theorem extracted_link_of {l : Link} (hl : l ∈ P.t.links.vals)
    (h : P.linkSel x flow (arcOf l) = true) :
    (P.extracted x flow).link l.id = 1 ∧ (P.extracted x flow).site l.tx = 1 ∧
    (P.extracted x flow).site l.rx = 1 := by
  have hm := arcOf_mem hl
  have hsel : arcOf l ∈ P.selArcs x flow := List.mem_filter.2 ⟨hm, h⟩
  obtain ⟨_, _, _, h4, h5, _⟩ := linkSel_site h
  refine ⟨?_, final_site (siteUsed_of_arc hsel (Or.inl rfl)) h4,
    final_site (siteUsed_of_arc hsel (Or.inr rfl)) h5⟩
  show (if (P.linkSel x flow (.site l.tx, .site l.rx) &&
      P.arcs.contains (.site l.tx, .site l.rx)) = true then (1 : Int) else 0) = 1
  change P.linkSel x flow (.site l.tx, .site l.rx) = true at h
  rw [h, if_pos]
  rw [Bool.true_and, List.contains_eq_mem, decide_eq_true_eq]
  exact hm

theorem kept (inv : P.t.Inv) {l : Link} (hl : l ∈ P.t.links.vals) (hs : SectorsInPlace P.t l)
    (ha : l.status.active = true) (hw : l.isWireless = true → l.sectors.isSome = true)
    (hc : 0 < l.capacity) (k1 : x.site l.tx = 1) (k2 : x.site l.rx = 1) :
    P.linkSel x flow (arcOf l) = true := by
  have e : P.linkOf (.site l.tx, .site l.rx) = some l := linkOf_arcOf inv hl
  have keep : ∀ s, (l.tx = s ∨ l.rx = s) → P.keptActive s = true := by
    intro s h
    unfold keptActive
    rw [Bool.or_eq_true, List.any_eq_true]
    exact Or.inr ⟨l, hl, by rw [ha]; simpa using h⟩
  have s1 : P.siteDec x flow l.tx = 1 := siteDec_kept (keep _ (Or.inl rfl)) k1
  have s2 : P.siteDec x flow l.rx = 1 := siteDec_kept (keep _ (Or.inr rfl)) k2
  have hin : P.inactiveArc (.site l.tx, .site l.rx) = false := by
    unfold inactiveArc
    rw [e]
    simp only [Option.any_some, Bool.or_eq_false_iff, Bool.and_eq_false_iff]
    constructor
    · cases h : l.status <;> rw [h] at ha <;> first | rfl | cases ha
    · by_cases c : l.isWireless = true
      · right
        have := hw c
        cases h : l.sectors with
        | none => rw [h] at this; cases this
        | some _ => rfl
      · left; exact Bool.eq_false_iff.2 c
  have hcap : 0 < P.cap (.site l.tx, .site l.rx) := by
    have := cap_arcOf inv hl
    change P.cap (.site l.tx, .site l.rx) = _ at this
    rw [this]; exact hc
  have hpol : P.polOk x flow l.tx l.rx = true := by
    unfold polOk inputActive
    rw [e]
    simp [ha]
  have hsec : P.isWired (.site l.tx, .site l.rx) = true ∨
      ((P.txSector (.site l.tx, .site l.rx)).any (fun k => P.sectorDec x flow l.tx k == 1) &&
       (P.rxSector (.site l.tx, .site l.rx)).any (fun k => P.sectorDec x flow l.rx k == 1)) = true := by
    by_cases c : l.isWireless = true
    · right
      obtain ⟨⟨a, b⟩, hab⟩ := Option.isSome_iff_exists.1 (hw c)
      obtain ⟨⟨d, hd, hds⟩, d', hd', hds'⟩ := hs a b hab
      unfold txSector rxSector sectorDec
      rw [e]
      simp [hab, hd, hd', hds, hds', s1, s2]
    · left
      unfold isWired
      simp only [e, Option.any_some]
      simpa using c
  unfold arcOf linkSel linkCand
  dsimp only
  rw [hin, hpol, s1, s2, decide_eq_true hcap]
  rcases hsec with h | h
  · simp [h]
  · rw [h]; simp

end Plan

/-- **C87.** A link that is PROPOSED or EXISTING in the input, has positive capacity
and sectors in place, and whose ends are PROPOSED or EXISTING sites with no other
site at their places, is in every extracted plan together with its ends, whether
or not the plan sends traffic over it. -/
theorem C87_decided_links_kept (ops : List Op) (p : OptParams) (adv : Arc → Bool) (x : Vars)
    (flow : Arc → ℚ) (common : Option ℚ) (sol : Solution) (cost : ℚ)
    (feas : (Plan.mk (run {} ops) p).SiteFeasible adv x)
    (h : (Plan.mk (run {} ops) p).extract x flow common = .ok (some (sol, cost)))
    (l : Link) (hl : l ∈ (run {} ops).links.vals) (hs : SectorsInPlace (run {} ops) l)
    (ha : l.status = .proposed ∨ l.status = .existing)
    (hw : l.isWireless = true → l.sectors.isSome = true) (hc : 0 < l.capacity)
    (hends : ∀ s, (s = l.tx ∨ s = l.rx) → ∃ y, (run {} ops).sites.get? s = some y ∧
      (y.status = .existing ∨ y.status = .proposed) ∧
      ∀ b, SamePlace ⟨run {} ops, p⟩ s b → b = s) :
    sol.link l.id = 1 ∧ sol.site l.tx = 1 ∧ sol.site l.rx = 1 := by
  have inv : Topology.Inv (Plan.mk (run {} ops) p).t := Inv.empty.run ops
  have key : ∀ s, (s = l.tx ∨ s = l.rx) → x.site s = 1 := by
    intro s hs
    obtain ⟨y, hy, hst, halone⟩ := hends s hs
    refine (C51_decided_sites_partial ops p adv x feas s y hy).2 hst ?_ ?_
    · intro b hb hne
      exact absurd (halone b hb) hne
    · by_cases c : y.siteType = .cn
      · right
        intro b z hb hz
        rw [halone b hb, show (Plan.mk (run {} ops) p).t = run {} ops from rfl, hy] at hz
        injection hz with hz
        rw [← hz]; exact c
      · exact Or.inl c
  rw [(Plan.extract_ok h).1]
  exact Plan.extracted_link_of hl (Plan.kept (P := ⟨run {} ops, p⟩) inv hl hs
    (by rcases ha with h | h <;> rw [h] <;> rfl) hw hc (key _ (Or.inl rfl)) (key _ (Or.inr rfl)))

/-- A POP and two DNs, all EXISTING; the link to the second DN is not needed. -/
def keptDemo : List Op := [
  .addSite { id := "P", siteType := .pop, status := .existing } false,
  .addSite { id := "D", siteType := .dn, status := .existing, lat := 1 } false,
  .addSite { id := "E", siteType := .dn, status := .existing, lat := 2 } false,
  .addSector { site := "P", node := 0, pos := 0, status := .existing },
  .addSector { site := "D", node := 0, pos := 0, status := .existing },
  .addSector { site := "E", node := 0, pos := 0, status := .existing },
  .addLink { tx := "P", rx := "D", capacity := 2, status := .existing,
             sectors := some (⟨"P", 0, 0, .dn⟩, ⟨"D", 0, 0, .dn⟩) },
  .addLink { tx := "D", rx := "P", capacity := 2, status := .existing,
             sectors := some (⟨"D", 0, 0, .dn⟩, ⟨"P", 0, 0, .dn⟩) },
  .addLink { tx := "P", rx := "E", capacity := 2, status := .existing,
             sectors := some (⟨"P", 0, 0, .dn⟩, ⟨"E", 0, 0, .dn⟩) },
  .addLink { tx := "E", rx := "P", capacity := 2, status := .existing,
             sectors := some (⟨"E", 0, 0, .dn⟩, ⟨"P", 0, 0, .dn⟩) },
  .addDemandSite { id := "q", connected := ["D"], demand := some 1 }]

/-- On this network the link from `P` to `E` carries nothing in the plan and stays. -/
example :
    let P : Plan := ⟨run {} keptDemo, { popCapacity := 10, costs := ⟨0, 0, 0⟩ }⟩
    ∃ x sol cost, P.setupErr = none ∧ P.SiteFeasible (fun _ => false) x ∧
      P.extract x x.flow none = .ok (some (sol, cost)) ∧ x.flow (.site "P", .site "E") = 0 ∧
      (P.t.links.get? ⟨"P", "E"⟩).any (fun l => l.status == .existing && decide (0 < l.capacity)) = true ∧
      P.t.sites.vals.map (fun s => (s.status, s.lat)) =
        [(.existing, 0), (.existing, 1), (.existing, 2)] ∧
      sol.link ⟨"P", "E"⟩ = 1 := by
  intro P
  let x : Vars := ⟨fun _ => 1, fun _ _ => 1,
    fun e => if e.2 = .site "E" ∨ e.1 = .site "E" ∨ e = (.site "D", .site "P") then 0 else 1,
    fun _ _ => 1/2, fun s => if s = "P" then 1 else 0, fun _ => 0⟩
  refine ⟨x, P.extracted x x.flow, P.extractCost (fun s => ((P.extracted x x.flow).site s : ℚ))
    (fun k => ((P.extracted x x.flow).sector k : ℚ)), by decide +kernel, Plan.Check.sound (by decide +kernel), ?_,
    by decide +kernel, by decide +kernel, by decide +kernel, by decide +kernel⟩
  unfold Plan.extract
  rw [if_neg (by decide +kernel), if_neg (by decide +kernel), if_neg (by decide +kernel)]

end Verif
