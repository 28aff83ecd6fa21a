import Verif.Model.Interf
import Verif.Model.History
import Verif.Lemmas.IlpCheck

/-! # A finite check of the interference constraints, used only for concrete examples -/

namespace Verif.Plan

/-- Constraints of `ExactCapacity` for one link. -/
def ExactCheck (P : Plan) (I : Interf) (x : IVars) (a b : SiteId) (k2 : SectorId) : Prop :=
  (P.p.ignorePolarities = false →
    ∀ q ∈ (P.interferers I x.toVars a b k2).filterMap ends, ∀ c < I.channels,
      0 ≤ x.pol a (.site q.1, .site q.2) c ∧ x.pol a (.site q.1, .site q.2) c ≤ 1 ∧
      x.pol a (.site q.1, .site q.2) c ≤ 1 + x.odd q.1 - x.odd a ∧
      x.pol a (.site q.1, .site q.2) c ≤ 1 - x.odd q.1 + x.odd a ∧
      x.pol a (.site q.1, .site q.2) c ≤ x.tdm (.site q.1, .site q.2) c ∧
      x.tdm (.site q.1, .site q.2) c + x.odd q.1 + x.odd a - 2 ≤ x.pol a (.site q.1, .site q.2) c ∧
      x.tdm (.site q.1, .site q.2) c - x.odd a - x.odd q.1 ≤ x.pol a (.site q.1, .site q.2) c) ∧
  (∀ c < I.channels,
      (∀ i < (classes I b).length,
        x.cls (.site a, .site b) c i = 0 ∨ x.cls (.site a, .site b) c i = 1) ∧
      perRsl I (.site a, .site b) (P.interfExpr I x a b k2 c + I.noise b) ≤
        ((List.range (classes I b).length).map fun i =>
          P.threshold I x a b k2 i * x.cls (.site a, .site b) c i).sum ∧
      ((List.range (classes I b).length).map fun i => x.cls (.site a, .site b) c i).sum ≤ 1 ∧
      (1 < I.channels → x.tdm (.site a, .site b) c ≤ 1 - x.cls (.site a, .site b) c (zeroRow I b))) ∧
  (1 < I.channels → (I.channels : ℚ) - 1 ≤
    ((List.range I.channels).map fun c => x.cls (.site a, .site b) c (zeroRow I b)).sum) ∧
  x.flow (.site a, .site b) ≤ ((List.range (classes I b).length).map fun i =>
      ((List.range I.channels).map fun c =>
        (((classes I b)[i]?).map (·.2)).getD 0 * x.cls (.site a, .site b) c i).sum).sum

instance (P : Plan) (I : Interf) (x : IVars) (a b : SiteId) (k2 : SectorId) :
    Decidable (P.ExactCheck I x a b k2) := by
  unfold ExactCheck
  repeat' apply +allowSynthFailures instDecidableAnd
  all_goals infer_instance

/-- The constraints of `InterfFeasible` written over finite lists. -/
def ICheck (P : Plan) (I : Interf) (x : IVars) : Prop :=
  (∀ e ∈ P.arcs, 0 ≤ x.flow e) ∧
  (∀ e ∈ P.arcs, P.hasTdm e = true → ∀ c < I.channels, 0 ≤ x.tdm e c ∧ x.tdm e c ≤ 1) ∧
  (P.p.ignorePolarities = false →
    ∀ s ∈ P.t.sites.keys, P.isDist (.site s) = true → x.odd s = 0 ∨ x.odd s = 1) ∧
  (∀ l ∈ P.demands, 0 ≤ x.shortage l ∧ x.shortage l ≤ P.demandAt l) ∧
  (∀ s ∈ P.t.sites.keys, x.site s = if P.liveSite s then 1 else 0) ∧
  (∀ k ∈ P.t.sectors.keys, ∀ c < I.channels, P.hasSector I.channels k c = true →
    x.sector k c = 0 ∨ x.sector k c = 1) ∧
  (∀ e ∈ P.arcs, P.hasActive e = true → x.active e = 0 ∨ x.active e = 1) ∧
  (∀ e ∈ P.arcs, if P.hasTdm e = true ∧ 0 < I.channels then
      x.flow e ≤ P.cap e * tdmSum I.channels x.toVars e
    else x.flow e ≤ min (P.cap e) P.maxThroughput) ∧
  (∀ e ∈ P.arcs, P.hasActive e = true → tdmSum I.channels x.toVars e ≤ x.active e) ∧
  (∀ l ∈ P.locations, (P.incoming l ≠ [] ∨ P.outgoing l ≠ []) →
    P.inFlow x.flow l - P.outFlow x.flow l = P.balanceRhs x.toVars l) ∧
  (∀ s ∈ P.t.sites.keys, P.isPop (.site s) = true → P.outgoing (.site s) ≠ [] →
    P.outFlow x.flow (.site s) ≤ P.p.popCapacity) ∧
  (∀ e ∈ P.arcs, P.hasActive e = true → x.flow e ≤ P.cap e * x.active e) ∧
  (∀ e ∈ P.arcs, P.hasActive e = true → (e.2, e.1) ∈ P.arcs →
    P.hasActive (e.2, e.1) = true → x.active e = x.active (e.2, e.1)) ∧
  (∀ e ∈ P.t.sectors, e.2.site ∈ P.t.sites.keys → ∀ c < I.channels,
    P.hasSector I.channels e.1 c = true →
      (P.txArcs e.2.site e.1 ≠ [] →
        ((P.txArcs e.2.site e.1).map fun a => x.tdm a c).sum ≤ x.sector e.1 c) ∧
      (P.rxArcs e.2.site e.1 ≠ [] →
        ((P.rxArcs e.2.site e.1).map fun a => x.tdm a c).sum ≤ x.sector e.1 c)) ∧
  (∀ e ∈ P.t.sectors, e.2.site ∈ P.t.sites.keys →
    P.sectorSum I.channels x.toVars e.1 ≤ x.site e.2.site) ∧
  (1 < I.channels → ∀ e ∈ P.t.sectors, e.2.typ = .dn →
    ((List.range I.channels).map fun c => x.sector e.1 c).sum ≤ 1) ∧
  (∀ e ∈ P.arcs, P.hasActive e = true →
    ∀ k1 ∈ (P.txSector e).toList, ∀ k2 ∈ (P.rxSector e).toList,
    (P.hasSector I.channels k1 0 = true → x.active e ≤ P.sectorSum I.channels x.toVars k1) ∧
    (P.hasSector I.channels k2 0 = true → x.active e ≤ P.sectorSum I.channels x.toVars k2) ∧
    (I.channels ≠ 1 → P.siteType? e.2 ≠ some .cn → ∀ c < I.channels,
      x.active e ≤ x.sector k1 c - x.sector k2 c + 1 ∧
      x.active e ≤ x.sector k2 c - x.sector k1 c + 1)) ∧
  (∀ s ∈ P.t.sites.keys, P.siteType? (.site s) = some .cn →
    (P.incoming (.site s)).filter P.hasActive ≠ [] →
    (((P.incoming (.site s)).filter P.hasActive).map x.active).sum ≤ 1) ∧
  (P.p.ignorePolarities = false → ∀ q ∈ P.arcs.filterMap ends,
    P.fixedArc (.site q.1, .site q.2) = false → P.hasActive (.site q.1, .site q.2) = true →
    P.isDist (.site q.1) = true → P.isDist (.site q.2) = true →
    x.active (.site q.1, .site q.2) ≤ x.odd q.1 + x.odd q.2 ∧
    x.active (.site q.1, .site q.2) ≤ 2 - x.odd q.1 - x.odd q.2) ∧
  (∀ q ∈ P.arcs.filterMap ends, P.fixedArc (.site q.1, .site q.2) = true →
    x.site q.1 ≠ 0 → x.site q.2 ≠ 0 →
    (P.hasActive (.site q.1, .site q.2) = true → x.active (.site q.1, .site q.2) = 1) ∧
    (∀ k ∈ (P.txSector (.site q.1, .site q.2)).toList, P.sectorSum I.channels x.toVars k = 1) ∧
    (∀ k ∈ (P.rxSector (.site q.1, .site q.2)).toList, P.sectorSum I.channels x.toVars k = 1)) ∧
  (∀ e ∈ P.arcs, P.inactiveArc e = true → P.hasActive e = true → x.active e = 0) ∧
  (P.p.ignorePolarities = false → ∀ q ∈ P.arcs.filterMap ends,
    P.fixedArc (.site q.1, .site q.2) = true →
    P.isDist (.site q.1) = true → P.isDist (.site q.2) = true → x.odd q.1 = 1 - x.odd q.2) ∧
  (∀ e ∈ P.arcs, P.inactiveArc e = true → x.flow e = 0) ∧
  (∀ e ∈ P.t.sectors, P.isDist (.site e.2.site) = true →
    (I.dnLimit ≤ (P.multiArcs true e.2.site e.1).length →
      ((P.multiArcs true e.2.site e.1).map x.active).sum ≤
        I.dnLimit * ((List.range I.channels).map fun c => x.sector e.1 c).sum) ∧
    (I.totalLimit ≤ (P.multiArcs false e.2.site e.1).length →
      ((P.multiArcs false e.2.site e.1).map x.active).sum ≤
        I.totalLimit * ((List.range I.channels).map fun c => x.sector e.1 c).sum)) ∧
  (I.channels ≠ 1 → ∀ e ∈ P.arcs, P.hasDeploy I e = true → ∀ c < I.channels,
    ∀ k1 ∈ (P.txSector e).toList, ∀ k2 ∈ (P.rxSector e).toList,
    (x.deploy e c = 0 ∨ x.deploy e c = 1) ∧ x.deploy e c ≤ x.active e ∧
    x.deploy e c ≤ x.sector k1 c ∧ x.deploy e c ≤ P.rxVar I.channels x.toVars k2 c ∧
    x.active e + x.sector k1 c + P.rxVar I.channels x.toVars k2 c - 2 ≤ x.deploy e c) ∧
  (∀ v ∈ I.violating,
    (Loc.site v.1, Loc.site v.2.1) ∈ P.arcs → P.hasActive (.site v.1, .site v.2.1) = true →
    (Loc.site v.1, Loc.site v.2.2) ∈ P.arcs → P.hasActive (.site v.1, .site v.2.2) = true →
    ¬ (P.fixedArc (.site v.1, .site v.2.1) = true ∧ P.fixedArc (.site v.1, .site v.2.2) = true) →
      if I.channels = 1 then x.active (.site v.1, .site v.2.1) + x.active (.site v.1, .site v.2.2) ≤ 1
      else ∀ c < I.channels, x.deploy (.site v.1, .site v.2.1) c + x.deploy (.site v.1, .site v.2.2) c ≤ 1) ∧
  (∀ q ∈ P.arcs.filterMap ends, P.hasActive (.site q.1, .site q.2) = true →
    x.site q.1 ≠ 0 → x.site q.2 ≠ 0 →
    ∀ k2 ∈ (P.rxSector (.site q.1, .site q.2)).toList, P.ExactCheck I x q.1 q.2 k2)

instance (P : Plan) (I : Interf) (x : IVars) : Decidable (P.ICheck I x) := by
  unfold ICheck
  repeat' apply +allowSynthFailures instDecidableAnd
  all_goals infer_instance

theorem hasDeploy_mem {P : Plan} {I : Interf} {e : Arc} (h : P.hasDeploy I e = true) : e ∈ P.arcs := by
  unfold hasDeploy at h
  rw [List.any_eq_true] at h
  obtain ⟨v, _, h⟩ := h
  simp only [Bool.and_eq_true, Bool.or_eq_true, beq_iff_eq, List.contains_iff_mem] at h
  obtain ⟨⟨⟨⟨h1, _⟩, h2⟩, _⟩, h3 | h3⟩ := h <;> rw [h3] <;> assumption

/-- The test `(loc, sec) in self.sector_vars` never succeeds. -/
theorem sectorKeys_none {P : Plan} {n : Nat} {s : SiteId} {k : SectorId} :
    (s, k, none) ∉ P.sectorKeys n := by
  unfold sectorKeys
  simp

theorem ICheck.sound {P : Plan} {I : Interf} {x : IVars} (h : P.ICheck I x) :
    P.InterfFeasible I x := by
  obtain ⟨h2, h3, h4, h5, h6, h7, h8, h9, h10, h11, h12, h13, h14, h15, h16, h17, h18, h19, h20,
    h21, h22, h23, h24, h25, h26, h27, h28⟩ := h
  have hp : ∀ a b, (Loc.site a, Loc.site b) ∈ P.arcs → (a, b) ∈ P.arcs.filterMap ends :=
    fun a b h => List.mem_filterMap.2 ⟨_, h, rfl⟩
  have ht : ∀ {o : Option SectorId} {k : SectorId}, o = some k → k ∈ o.toList := by
    rintro _ k rfl; simp
  exact {
    bounds := ⟨fun s hs => by rw [h6 s hs]; split <;> simp, h2, h3,
      fun hi s hs => h4 hi s (isDist_key hs) hs, h5⟩
    site := h6
    sector := fun k c hc hk => by
      refine h7 k ?_ c hc hk
      unfold hasSector at hk
      rw [Option.any_eq_true] at hk
      obtain ⟨d, hd, _⟩ := hk
      exact (Dict.mem_keys_iff _ _).2 ⟨d, hd⟩
    active := h8
    tdmFlow := h9
    tdmLink := fun _ => h10
    flowBalance := h11
    popLoad := h12
    flowLink := h13
    symmetric := fun a b m1 a1 m2 a2 => h14 (a, b) m1 a1 m2 a2
    tdmSector := fun k d hk hs => h15 (k, d) (Dict.mem_of_get? _ hk) hs
    sectorSite := fun k d hk hs => h16 (k, d) (Dict.mem_of_get? _ hk) hs
    sameNode := fun k1 k2 d1 d2 _ _ _ _ h => absurd h sectorKeys_none
    sectorChannel := fun hn k d hk ht => h17 hn (k, d) (Dict.mem_of_get? _ hk) ht
    sectorLink := fun e he ha k1 k2 e1 e2 => h18 e he ha k1 (ht e1) k2 (ht e2)
    cnLinks := fun s hs => by
      refine h19 s ?_ hs
      change (P.t.sites.get? s).map _ = _ at hs
      rw [Option.map_eq_some_iff] at hs
      obtain ⟨y, hy, _⟩ := hs
      exact (Dict.mem_keys_iff _ _).2 ⟨y, hy⟩
    polarity := fun hi a b hm => h20 hi (a, b) (hp a b hm)
    decided := ⟨fun a b hm hf ha hb => by
      obtain ⟨g1, g2, g3⟩ := h21 (a, b) (hp a b hm) hf ha hb
      exact ⟨g1, fun k hk => g2 k (ht hk), fun k hk => g3 k (ht hk)⟩, h22⟩
    fixedPolarity := fun hi a b hm => h23 hi (a, b) (hp a b hm)
    inactiveFlow := h24
    multiPoint := fun k d hk hd => h25 (k, d) (Dict.mem_of_get? _ hk) hd
    deployment := fun hn e he c hc k1 k2 e1 e2 =>
      h26 hn e (hasDeploy_mem he) he c hc k1 (ht e1) k2 (ht e2)
    angle := h27
    exact := fun a b hm ha hsa hsb k2 hk => by
      obtain ⟨g1, g2, g3, g4⟩ := h28 (a, b) (hp a b hm) ha hsa hsb k2 (ht hk)
      exact ⟨fun hi k l hkl c hc => g1 hi (k, l) (List.mem_filterMap.2 ⟨_, hkl, rfl⟩) c hc, g2, g3, g4⟩ }

end Verif.Plan

namespace Verif
open Topology

/-- A POP `P` with two sectors serving the DNs `D` and `F`, which serve the CNs `C`
and `G`; the candidate link from `F` to `C` uses the sector that serves `G`. -/
def interfDemo : List Op := [
  .addSite { id := "P", siteType := .pop, status := .existing } false,
  .addSite { id := "D", siteType := .dn, status := .proposed, lat := 1 } false,
  .addSite { id := "F", siteType := .dn, status := .proposed, lat := 2 } false,
  .addSite { id := "C", siteType := .cn, status := .proposed, lat := 3 } false,
  .addSite { id := "G", siteType := .cn, status := .proposed, lat := 4 } false,
  .addSector { site := "P", node := 0, pos := 0 },
  .addSector { site := "P", node := 0, pos := 1 },
  .addSector { site := "D", node := 0, pos := 0 },
  .addSector { site := "D", node := 1, pos := 0 },
  .addSector { site := "F", node := 0, pos := 0 },
  .addSector { site := "F", node := 1, pos := 0 },
  .addSector { site := "C", node := 0, pos := 0, typ := .cn },
  .addSector { site := "G", node := 0, pos := 0, typ := .cn },
  .addLink { tx := "P", rx := "D", capacity := 4,
             sectors := some (⟨"P", 0, 0, .dn⟩, ⟨"D", 0, 0, .dn⟩) },
  .addLink { tx := "D", rx := "P", capacity := 4,
             sectors := some (⟨"D", 0, 0, .dn⟩, ⟨"P", 0, 0, .dn⟩) },
  .addLink { tx := "P", rx := "F", capacity := 4,
             sectors := some (⟨"P", 0, 1, .dn⟩, ⟨"F", 0, 0, .dn⟩) },
  .addLink { tx := "F", rx := "P", capacity := 4,
             sectors := some (⟨"F", 0, 0, .dn⟩, ⟨"P", 0, 1, .dn⟩) },
  .addLink { tx := "D", rx := "C", capacity := 2,
             sectors := some (⟨"D", 1, 0, .dn⟩, ⟨"C", 0, 0, .cn⟩) },
  .addLink { tx := "F", rx := "C", capacity := 2,
             sectors := some (⟨"F", 1, 0, .dn⟩, ⟨"C", 0, 0, .cn⟩) },
  .addLink { tx := "F", rx := "G", capacity := 2,
             sectors := some (⟨"F", 1, 0, .dn⟩, ⟨"G", 0, 0, .cn⟩) },
  .addDemandSite { id := "q", connected := ["C"], demand := some 2 },
  .addDemandSite { id := "r", connected := ["G"], demand := some 1 }]

/-- Two channels; `P → D` and `P → F` are flagged as too close. -/
def interfDemoIn : Interf where
  channels := 2
  violating := [("P", "D", "F")]
  dnLimit := 1
  totalLimit := 2
  rsl := fun _ => 1
  rslInterf := fun _ => 1/4
  noise := fun _ => 1/8
  mcs := fun _ => [(1, 1/2), (1/4, 2)]

/-- `P → D` uses channel 0, the other chosen links use channel 1. -/
def interfDemoVars : IVars where
  site _ := 1
  sector k c :=
    if k = ⟨"P", 0, 0, .dn⟩ ∨ k = ⟨"D", 0, 0, .dn⟩ ∨ k.typ = .cn then (if c = 0 then 1 else 0)
    else (if c = 1 then 1 else 0)
  flow e :=
    if e = (.source, .site "P") then 3/2
    else if e = (.site "P", .site "D") ∨ e = (.site "D", .site "C") ∨
      e = (.site "C", .demand "q" 0) then 1
    else if e = (.site "P", .site "F") ∨ e = (.site "F", .site "G") ∨
      e = (.site "G", .demand "r" 0) then 1/2 else 0
  tdm e c :=
    if e = (.site "P", .site "D") ∧ c = 0 then 1/4
    else if e = (.site "P", .site "F") ∧ c = 1 then 1/8
    else if e = (.site "D", .site "C") ∧ c = 1 then 1/2
    else if e = (.site "F", .site "G") ∧ c = 1 then 1/4 else 0
  odd s := if s = "P" then 1 else 0
  shortage _ := 0
  active e := if e = (.site "F", .site "C") then 0 else 1
  deploy e c := if e = (.site "P", .site "D") then (if c = 0 then 1 else 0)
    else (if c = 1 then 1 else 0)
  cls e c i :=
    if e = (.site "F", .site "C") then (if i = 2 then 1 else 0)
    else if e = (.site "P", .site "D") ∨ e = (.site "D", .site "P") then
      (if c = 0 then (if i = 1 then 1 else 0) else (if i = 2 then 1 else 0))
    else (if c = 1 then (if i = 1 then 1 else 0) else (if i = 2 then 1 else 0))
  pol a e c := if a = "D" ∧ e = (.site "F", .site "G") ∧ c = 1 then 1/4
    else if a = "F" ∧ e = (.site "D", .site "C") ∧ c = 1 then 1/2 else 0

def interfDemoParams : OptParams where
  popCapacity := 10
  oversubscription := 2
  costs := ⟨7, 20, 3⟩

theorem interfDemo_ok : (Plan.mk (run {} interfDemo) interfDemoParams).setupErr = none := by
  decide +kernel

theorem interfDemo_feasible : (Plan.mk (run {} interfDemo) interfDemoParams).InterfFeasible
    interfDemoIn interfDemoVars :=
  Plan.ICheck.sound (by decide +kernel)

end Verif
