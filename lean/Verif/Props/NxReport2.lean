import Verif.Props.NxReport

/-!
# Failure reports on concrete networks (C35, C36, C37, C103)
-/

namespace Verif

open Spec Topology Relation

/-- The sites that survive, computed. -/
def survivors (t : Topology) (F : List SiteId) (G : List (SiteId × SiteId)) : List SiteId :=
  let E := (t.links.filter fun kl => kl.2.status.active && !G.contains (kl.1.tx, kl.1.rx) &&
    !G.contains (kl.1.rx, kl.1.tx) && t.admits StatusType.active kl.1.rx && !F.contains kl.1.rx).map
      fun kl => (kl.1.tx, kl.1.rx)
  closure E E.length ((t.sites.filter fun e => e.2.siteType == .pop && e.2.status.active &&
    !F.contains e.1).map (·.1))

theorem mem_survivors {t : Topology} (inv : t.Inv) (F G) (s : SiteId) :
    s ∈ survivors t F G ↔ Survives t F G s := by
  unfold survivors
  constructor
  · dsimp only
    apply closure_sound _ (Survives t F G) ?_ _ _ ?_ s
    · intro e he h
      obtain ⟨kl, hkl, rfl⟩ := List.mem_map.1 he
      rw [List.mem_filter] at hkl
      obtain ⟨h1, h2⟩ := hkl
      simp only [Bool.and_eq_true, Bool.not_eq_true', List.contains_iff_mem, ← Bool.not_eq_true] at h2
      obtain ⟨⟨⟨⟨h2, h3⟩, h4⟩, h5⟩, h6⟩ := h2
      obtain ⟨y, h7, h8⟩ := admits_iff'.1 h5
      exact Survives.hop h ((Dict.mem_iff_get? inv.nd_links _ _).1 h1) ((active_iff _).1 h2) h3 h4 h7
        ((active_iff _).1 h8) h6
    · intro v hv
      obtain ⟨e, he, rfl⟩ := List.mem_map.1 hv
      rw [List.mem_filter] at he
      obtain ⟨h1, h2⟩ := he
      simp only [Bool.and_eq_true, beq_iff_eq, Bool.not_eq_true', List.contains_iff_mem,
        ← Bool.not_eq_true] at h2
      exact Survives.pop ((Dict.mem_iff_get? inv.nd_sites _ _).1 h1) h2.1.1 ((active_iff _).1 h2.1.2) h2.2
  · intro h
    dsimp only
    induction h with
    | @pop s x h1 h2 h3 h4 =>
      apply closure_sub
      refine List.mem_map.2 ⟨(s, x), List.mem_filter.2 ⟨Dict.mem_of_get? _ h1, ?_⟩, rfl⟩
      simp [h2, (active_iff _).2 h3, h4]
    | @hop a b l y _ h1 h2 h3 h4 h5 h6 h7 ih =>
      refine closure_closed _ _ _ List.countP_le_length (a, b) ?_ ih
      refine List.mem_map.2 ⟨(⟨a, b⟩, l), List.mem_filter.2 ⟨Dict.mem_of_get? _ h1, ?_⟩, rfl⟩
      simp [(active_iff _).2 h2, h3, h4, h7, admits_iff'.2 ⟨y, h5, (active_iff _).2 h6⟩]

/-- Service, computed. -/
def served (t : Topology) (F : List SiteId) (G : List (SiteId × SiteId)) (d : DemandId) : Bool :=
  match t.demandSites.get? d with
  | none => false
  | some dm => dm.connected.any fun s => (survivors t F G).contains s

theorem served_iff {t : Topology} (inv : t.Inv) (F G) (d : DemandId) :
    served t F G d = true ↔ Served t F G d := by
  unfold served Served
  cases t.demandSites.get? d with
  | none => simp
  | some dm => simp [List.any_eq_true, mem_survivors inv]

/-- The number of demand sites that lose service is unique. -/
theorem loseService_iff {t : Topology} (inv : t.Inv) (F G) (n : Nat) :
    LoseService t F G n ↔
      (t.demandSites.keys.filter fun d => served t [] [] d && !served t F G d).length = n := by
  have hnd : (t.demandSites.keys.filter fun d => served t [] [] d && !served t F G d).Nodup :=
    (inv.nd_demand : t.demandSites.keys.Nodup).filter _
  have hmem : ∀ d, d ∈ (t.demandSites.keys.filter fun d => served t [] [] d && !served t F G d) ↔
      Served t [] [] d ∧ ¬ Served t F G d := by
    intro d
    rw [List.mem_filter]
    simp only [Bool.and_eq_true, Bool.not_eq_true', ← Bool.not_eq_true, served_iff inv]
    constructor
    · exact fun h => h.2
    · intro h
      obtain ⟨dm, hd, _⟩ := h.1
      exact ⟨(Dict.mem_keys_iff _ _).2 ⟨dm, hd⟩, h⟩
  constructor
  · rintro ⟨S, h1, h2, h3⟩
    rw [← h2]
    exact ((List.perm_ext_iff_of_nodup hnd h1).2 (fun d => by rw [hmem, h3])).length_eq
  · intro h
    exact ⟨_, hnd, h, hmem⟩

theorem noCnSender_of {t : Topology}
    (h : ∀ kl ∈ t.links, ∀ sx ∈ t.sites, sx.1 = kl.1.tx → sx.2.siteType ≠ .cn) : NoCnSender t := by
  intro a b l x hl hx
  exact h _ (Dict.mem_of_get? _ hl) _ (Dict.mem_of_get? _ hx) rfl

theorem noLoop_of {t : Topology} (h : ∀ kl ∈ t.links, kl.1.tx ≠ kl.1.rx) : NoSelfLink t := by
  intro a
  cases hl : t.links.get? ⟨a, a⟩ with
  | none => rfl
  | some l => exact absurd rfl (h _ (Dict.mem_of_get? _ hl))

theorem popInUse_of {t : Topology} (inv : t.Inv)
    (h : ∃ e ∈ t.sites, e.2.siteType = .pop ∧ InNetwork e.2.status) : PopInUse t := by
  obtain ⟨e, h1, h2, h3⟩ := h
  exact ⟨e.1, e.2, (Dict.mem_iff_get? inv.nd_sites _ _).1 h1, h2, h3⟩

/-- Both directions of a radio link in use. -/
def radioPair (a b : SiteId) (tb : SectorType := .dn) : List Op := [
  .addLink { tx := a, rx := b, capacity := 5, status := .proposed,
             sectors := some (⟨a, 0, 0, .dn⟩, ⟨b, 0, 0, tb⟩) },
  .addLink { tx := b, rx := a, capacity := 5, status := .proposed,
             sectors := some (⟨b, 0, 0, tb⟩, ⟨a, 0, 0, .dn⟩) }]

/-- A POP `P` and DNs `A`, `B` in a ring, a DN `Z` behind `B`, a CN `C` behind `A`; demand sites at the CN,
at `Z` and at the POP, and one at no site. -/
def ringDemo : List Op := [
  .addSite { id := "P", siteType := .pop, status := .existing } false,
  .addSite { id := "A", siteType := .dn, status := .proposed, lat := 1 } false,
  .addSite { id := "B", siteType := .dn, status := .proposed, lat := 2 } false,
  .addSite { id := "Z", siteType := .dn, status := .proposed, lat := 3 } false,
  .addSite { id := "C", siteType := .cn, status := .proposed, lat := 4 } false,
  .addSector { site := "P", node := 0, pos := 0, status := .existing },
  .addSector { site := "A", node := 0, pos := 0, status := .proposed },
  .addSector { site := "B", node := 0, pos := 0, status := .proposed },
  .addSector { site := "Z", node := 0, pos := 0, status := .proposed },
  .addSector { site := "C", node := 0, pos := 0, typ := .cn, status := .proposed },
  .addLink { tx := "A", rx := "C", capacity := 5, status := .proposed,
             sectors := some (⟨"A", 0, 0, .dn⟩, ⟨"C", 0, 0, .cn⟩) },
  .addDemandSite { id := "c", connected := ["C"], demand := some 1 },
  .addDemandSite { id := "z", connected := ["Z"], demand := some 1 },
  .addDemandSite { id := "p", connected := ["P"], demand := some 1 },
  .addDemandSite { id := "n", connected := [], demand := some 1 }] ++
  radioPair "P" "A" ++ radioPair "P" "B" ++ radioPair "A" "B" ++ radioPair "B" "Z"

theorem ringDemo_hyps : NoCnSender (run {} ringDemo) ∧ NoSelfLink (run {} ringDemo) ∧
    PopInUse (run {} ringDemo) ∧ (run {} ringDemo).validateStatus = none :=
  ⟨noCnSender_of (by decide +kernel), noLoop_of (by decide +kernel),
    popInUse_of (Inv.empty.run ringDemo) (by decide +kernel), by decide +kernel⟩

/-- The link from `a` to `b` as `radioPair` adds it. -/
def radioLink (a b : SiteId) : Link :=
  { tx := a, rx := b, capacity := 5, status := .proposed,
    sectors := some (⟨a, 0, 0, .dn⟩, ⟨b, 0, 0, .dn⟩) }

theorem ringDemo_counted : CountedLink (run {} ringDemo) (radioLink "B" "Z") ∧
    CountedLink (run {} ringDemo) (radioLink "A" "P") := by
  have h : ∀ l ∈ [radioLink "B" "Z", radioLink "A" "P"],
      (run {} ringDemo).links.get? ⟨l.tx, l.rx⟩ = some l ∧ l.isWireless = true ∧ InNetwork l.status ∧
      (∃ x ∈ (run {} ringDemo).sites.get? l.tx, InNetwork x.status) ∧
      (∃ y ∈ (run {} ringDemo).sites.get? l.rx, InNetwork y.status ∧ y.siteType ≠ .cn) := by
    decide +kernel
  exact ⟨h _ (by simp), h _ (by simp)⟩

/-- C35 and C36 on the demo network, whatever the shortest paths: one demand site depends on the link
`B`-`Z` and on `B`, none on the link `A`-`P`, and all three depend on the POP. -/
example (cost : Link → Option Nat) : ∃ paths r,
    ShortestPaths ((run {} ringDemo).buildDigraph StatusType.active cost).edge .super paths ∧
    failureReport (run {} ringDemo) cost paths = .ok r ∧
    r.linkBreakdowns (radioLink "B" "Z") = 1 ∧ r.linkBreakdowns (radioLink "A" "P") = 0 ∧
    (∀ x, (run {} ringDemo).sites.get? "B" = some x → r.siteBreakdowns x = 1) ∧
    (∀ x, (run {} ringDemo).sites.get? "P" = some x → r.siteBreakdowns x = 3) := by
  have inv := Inv.empty.run ringDemo
  obtain ⟨h1, h2, h3, _⟩ := ringDemo_hyps
  obtain ⟨paths, sp⟩ := shortestPaths_exist ((run {} ringDemo).buildDigraph StatusType.active cost).edge .super
  obtain ⟨r, hr, k1⟩ := C35_link_breakdowns_partial ringDemo cost paths h1 h2 h3 sp
  obtain ⟨r', hr', k2⟩ := C36_site_breakdowns_partial ringDemo cost paths h1 h2 h3 sp
  rw [hr] at hr'
  simp only [Except.ok.injEq] at hr'
  subst hr'
  refine ⟨paths, r, sp, hr, ?_, ?_, ?_, ?_⟩
  · have := (loseService_iff inv _ _ _).1 (k1 _ ringDemo_counted.1 (by decide +kernel))
    rw [← this]
    decide +kernel
  · have := (loseService_iff inv _ _ _).1 (k1 _ ringDemo_counted.2 (by decide +kernel))
    rw [← this]
    decide +kernel
  · intro x hx
    have hc : ∀ x ∈ (run {} ringDemo).sites.get? "B", x.siteType ≠ .cn := by decide +kernel
    have := (loseService_iff inv _ _ _).1 (k2 "B" x hx (hc x hx))
    rw [← this]
    decide +kernel
  · intro x hx
    have hc : ∀ x ∈ (run {} ringDemo).sites.get? "P", x.siteType ≠ .cn := by decide +kernel
    have := (loseService_iff inv _ _ _).1 (k2 "P" x hx (hc x hx))
    rw [← this]
    decide +kernel

/-- C35, violation on the demo network: the demand site at `Z` loses service when the link between `Z`
and `B` fails, the link from `Z` to `B` is reported with no breakdowns. -/
theorem C35_reverse_violation (cost : Link → Option Nat) (paths : Paths) (r : FailureReport)
    (h : failureReport (run {} ringDemo) cost paths = .ok r) :
    (run {} ringDemo).links.get? ⟨"Z", "B"⟩ = some (radioLink "Z" "B") ∧
    LoseService (run {} ringDemo) [] [("Z", "B")] 1 ∧ r.linkBreakdowns (radioLink "Z" "B") = 0 :=
  ⟨by decide +kernel, (loseService_iff (Inv.empty.run ringDemo) _ _ _).2 (by decide +kernel),
    C35_direction_violation ringDemo cost paths r h _ (by decide +kernel)⟩

/-- C36, violation: a CN is reported with no breakdowns although its demand site loses service when it
fails. -/
theorem C36_cn_violation (cost : Link → Option Nat) (paths : Paths) (r : FailureReport)
    (_ : failureReport (run {} ringDemo) cost paths = .ok r) :
    LoseService (run {} ringDemo) ["C"] [] 1 ∧
    ∀ x, (run {} ringDemo).sites.get? "C" = some x → r.siteBreakdowns x = 0 := by
  refine ⟨(loseService_iff (Inv.empty.run ringDemo) _ _ _).2 (by decide +kernel), fun x hx => ?_⟩
  have h : ∀ x ∈ (run {} ringDemo).sites.get? "C", x.siteType = .cn := by decide +kernel
  unfold FailureReport.siteBreakdowns
  rw [h x hx]

/-- C103 on the demo network: the demand site at the CN has disjoint paths, that at `Z` has not. -/
example (cost : Link → Option Nat) : ∃ paths K R,
    ShortestPaths ((run {} ringDemo).buildDigraph StatusType.active cost).edge .super paths ∧
    disjointPaths (run {} ringDemo) paths ((run {} ringDemo).buildDigraph StatusType.active cost) =
      .ok (K, R) ∧ "c" ∈ R.disjoint ∧ "z" ∉ R.disjoint ∧ "p" ∈ R.atPop ∧ "n" ∈ R.disconnected := by
  have inv := Inv.empty.run ringDemo
  obtain ⟨h1, h2, h3, h4⟩ := ringDemo_hyps
  obtain ⟨paths, sp⟩ := shortestPaths_exist ((run {} ringDemo).buildDigraph StatusType.active cost).edge .super
  obtain ⟨K, R, hr, k1, k2, k3⟩ := C103_disjoint_paths_exact ringDemo cost paths h4 h1 h3 sp
  have atp : ∀ d, AtPop (run {} ringDemo) d ↔ ∃ dm ∈ (run {} ringDemo).demandSites.get? d,
      ∃ s ∈ dm.connected, ∃ x ∈ (run {} ringDemo).sites.get? s, x.siteType = .pop ∧ InNetwork x.status := by
    intro d; exact Iff.rfl
  refine ⟨paths, K, R, sp, hr, (k3 _).2 ⟨?_, ?_, ?_⟩, ?_, ?_, ?_⟩
  · exact (served_iff inv _ _ _).1 (by decide +kernel)
  · exact fun c => absurd ((atp _).1 c) (by decide +kernel)
  · rintro a b ⟨x, hx, hxc⟩ ⟨y, hy, hyc⟩
    refine (served_iff inv _ _ _).1 ?_
    have h : ∀ sx ∈ (run {} ringDemo).sites, ∀ sy ∈ (run {} ringDemo).sites, sx.2.siteType ≠ .cn →
        sy.2.siteType ≠ .cn → served (run {} ringDemo) [] [(sx.1, sy.1)] "c" = true := by decide +kernel
    exact h (a, x) (Dict.mem_of_get? _ hx) (b, y) (Dict.mem_of_get? _ hy) hxc hyc
  · intro c
    have nb : ∀ s ∈ ["B", "Z"], ∃ x ∈ (run {} ringDemo).sites.get? s, x.siteType ≠ .cn := by decide +kernel
    have := ((k3 _).1 c).2.2 "B" "Z" (nb _ (by simp)) (nb _ (by simp))
    exact absurd ((served_iff inv _ _ _).2 this) (by decide +kernel)
  · exact (k2 _).2 ((atp _).2 (by decide +kernel))
  · exact (k1 _).2 ⟨by decide +kernel, fun c => absurd ((served_iff inv _ _ _).2 c) (by decide +kernel)⟩

/-- C37, violation on the demo network: for any shortest paths, the edge from `B` to `Z` is a wireless
backhaul edge before `disjoint_paths` and has no attributes after it. -/
theorem C37_demo_violation (cost : Link → Option Nat) (paths : Paths)
    (sp : ShortestPaths ((run {} ringDemo).buildDigraph StatusType.active cost).edge .super paths) :
    (∃ a, ((run {} ringDemo).buildDigraph StatusType.active cost).edges.get? (.site "B", .site "Z") = some a ∧
      a.kind = some (.link .wirelessBackhaul)) ∧
    ∃ K R, disjointPaths (run {} ringDemo) paths ((run {} ringDemo).buildDigraph StatusType.active cost) =
      .ok (K, R) ∧ K.edges.get? (.site "B", .site "Z") = some { kind := none, cost := none } := by
  have inv := Inv.empty.run ringDemo
  obtain ⟨h1, h2, h3, h4⟩ := ringDemo_hyps
  have hc := counted_edge (cost := cost) inv ringDemo_counted.1
  rw [show (radioLink "B" "Z").tx = "B" from rfl, show (radioLink "B" "Z").rx = "Z" from rfl] at hc
  refine ⟨hc, ?_⟩
  have hs : Served (run {} ringDemo) [] [] "z" := (served_iff inv _ _ _).1 (by decide +kernel)
  have hj := (joined_all_iff (cost := cost) inv).2 hs
  obtain ⟨q, hq⟩ := Joined.walk hj
  cases hp : paths (.demand "z") with
  | none => exact absurd hq ((sp.none_iff _).1 hp q)
  | some p =>
    obtain ⟨w1, w2, w3⟩ := sp.walk _ _ hp
    -- the path enters `Z` by the only edge that leads there
    have hin : ∀ u, ((run {} ringDemo).buildDigraph StatusType.active cost).edge (u, .demand "z") →
        u = .site "Z" := by
      intro u hu
      cases u with
      | super =>
        obtain ⟨s, y, h, _⟩ := (build_edge_super inv).1 hu
        simp at h
      | demand d => exact absurd hu build_no_out
      | site a =>
        obtain ⟨dm, m1, m2, _⟩ := (build_edge_demand inv).1 hu
        have : ∀ dm ∈ (run {} ringDemo).demandSites.get? "z", dm.connected = ["Z"] := by decide +kernel
        rw [this dm m1] at m2
        simpa using m2
    have hin2 : ∀ u, ((run {} ringDemo).buildDigraph StatusType.active cost).edge (u, .site "Z") →
        u = .site "B" := by
      intro u hu
      cases u with
      | super =>
        obtain ⟨s, y, h, m1, m2, _⟩ := (build_edge_super inv).1 hu
        simp only [GNode.site.injEq] at h
        subst h
        have : ∀ x ∈ (run {} ringDemo).sites.get? "Z", x.siteType ≠ .pop := by decide +kernel
        exact absurd m2 (this y m1)
      | demand d => exact absurd hu build_no_out
      | site a =>
        obtain ⟨l, m1, _⟩ := (build_edge_site inv).1 hu
        have : ∀ kl ∈ (run {} ringDemo).links, kl.1.rx = "Z" → kl.1.tx = "B" := by decide +kernel
        rw [show a = "B" from this _ (Dict.mem_of_get? _ m1) rfl]
    obtain ⟨e1, m1, m2, m3⟩ := crossing (R := fun v => v ≠ .demand "z") w1 w2 (by simp) (by simp)
    have hz := hin e1.1 (by
      have := pairs_edge w3 _ m1
      have h2 : e1.2 = .demand "z" := by simpa using m3
      rw [← h2]; exact this)
    obtain ⟨e2, n1, n2, n3⟩ := crossing (R := fun v => v ≠ .demand "z" ∧ v ≠ .site "Z") w1 w2 (by simp) (by simp)
    have hB : e2 = (.site "B", .site "Z") := by
      have he := pairs_edge w3 _ n1
      have h2 : e2.2 = .site "Z" := by
        by_contra c
        have : e2.2 = .demand "z" := by
          by_contra c'
          exact n3 ⟨c', c⟩
        exact n2.2 (hin e2.1 (by rw [← this]; exact he))
      have := hin2 e2.1 (by rw [← h2]; exact he)
      exact Prod.ext this h2
    rw [hB] at n1
    have hlen : 3 < p.length := by
      by_contra c
      cases p with
      | nil => simp at w1
      | cons a p =>
        simp only [List.head?_cons, Option.some.injEq] at w1
        subst w1
        cases p with
        | nil => simp [pairs] at n1
        | cons b p =>
          cases p with
          | nil => simp [pairs] at n1
          | cons c' p =>
            cases p with
            | nil =>
              simp only [List.getLast?_cons_cons, List.getLast?_singleton, Option.some.injEq] at w2
              subst w2
              simp [pairs] at n1
            | cons z p => simp at c
    have nz : ∃ x ∈ (run {} ringDemo).sites.get? "Z", x.siteType ≠ .cn := by decide +kernel
    exact C37_attributes_lost_violation ringDemo cost paths h1 h3 sp "z" (by decide +kernel) p hp hlen "B" "Z"
      n1 nz

/-- The hypotheses of C37 on the demo network. -/
example (cost : Link → Option Nat) : ∃ paths,
    ShortestPaths ((run {} ringDemo).buildDigraph StatusType.active cost).edge .super paths ∧
    NoCnSender (run {} ringDemo) ∧ PopInUse (run {} ringDemo) := by
  obtain ⟨paths, sp⟩ := shortestPaths_exist ((run {} ringDemo).buildDigraph StatusType.active cost).edge .super
  exact ⟨paths, sp, ringDemo_hyps.1, ringDemo_hyps.2.2.1⟩

end Verif
