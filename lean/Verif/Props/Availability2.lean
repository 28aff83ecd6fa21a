import Verif.Props.Availability

/-!
# Simulated availability of the report (C34)
-/

namespace Verif

open Spec Topology Relation

theorem get?_map_key {κ ν : Type} [DecidableEq κ] (L : List κ) (f : κ → ν) (k : κ) :
    Dict.get? (L.map fun x => (x, f x)) k = if k ∈ L then some (f k) else none := by
  induction L with
  | nil => simp [Dict.get?]
  | cons x L ih =>
    by_cases h : x = k
    · subst h; simp [Dict.get?]
    · have h' : ¬ k = x := fun c => h c.symm
      simp only [List.mem_cons, h', false_or, ← ih]
      simp [Dict.get?, List.find?, List.lookup, h, h']

theorem servedAt_iff {t : Topology} {cost : Link → Option Nat} (inv : t.Inv) {K : Graph} {L : List GEdge}
    (hKe : ∀ e, K.edge e ↔ (t.buildDigraph inUse cost).edge e)
    (hL : ∀ k, k ∈ L ↔ ∃ a b, k = (.site a, .site b) ∧ FailingLink t a b)
    (O : GEdge → List (ℚ × ℚ)) (d : DemandId) (x : ℚ) :
    reachedAt K L O (.demand d) x ↔ ServedAt t (fun a b => O (.site a, .site b)) d x := by
  classical
  have key : ∀ G : List (SiteId × SiteId),
      (∀ a b, (a, b) ∈ G ↔ FailingLink t a b ∧ DownAt (O (.site a, .site b)) x) →
      (reachedAt K L O (.demand d) x ↔ Served t [] G d) := by
    intro G hG
    rw [← joined_links_iff (cost := cost) inv]
    unfold reachedAt
    apply Graph.Joined.congr
    intro e
    unfold workingAt
    rw [hKe]
    apply and_congr_right
    intro _
    constructor
    · rintro h ⟨a, b⟩ hp
      obtain ⟨h1, h2⟩ := (hG a b).1 hp
      exact h _ ((hL _).2 ⟨a, b, rfl, h1⟩) h2
    · intro h k hk hdown
      obtain ⟨a, b, rfl, hf⟩ := (hL k).1 hk
      exact h (a, b) ((hG a b).2 ⟨hf, hdown⟩)
  constructor
  · intro h
    -- the links that are down, as a list of site pairs
    let G := L.filterMap fun k => match k with
      | (.site a, .site b) => if DownAt (O (.site a, .site b)) x then some (a, b) else none
      | _ => none
    have hG : ∀ a b, (a, b) ∈ G ↔ FailingLink t a b ∧ DownAt (O (.site a, .site b)) x := by
      intro a b
      rw [List.mem_filterMap]
      constructor
      · rintro ⟨k, hk, hk'⟩
        obtain ⟨a', b', rfl, hf⟩ := (hL k).1 hk
        dsimp only at hk'
        split at hk'
        · simp only [Option.some.injEq, Prod.mk.injEq] at hk'
          obtain ⟨rfl, rfl⟩ := hk'
          rename_i hd
          exact ⟨hf, hd⟩
        · cases hk'
      · rintro ⟨hf, hd⟩
        exact ⟨(.site a, .site b), (hL _).2 ⟨a, b, rfl, hf⟩, by dsimp only; rw [if_pos hd]⟩
    exact ⟨G, hG, (key G hG).1 h⟩
  · rintro ⟨G, hG, hs⟩
    exact (key G hG).2 hs

/-- The schedule of outages of the link between `a` and `b`. -/
abbrev schedule (sim : ℚ) (draws : GEdge → List (ℚ × ℚ)) (a b : SiteId) : List (ℚ × ℚ) :=
  outages sim 0 (draws (.site a, .site b))

/-- C34, the exact result: for a validated network and any positive times to failure, the simulation
succeeds. It looks at times `ts` from 0 to `T`, the end of the simulation (earlier only if the time limit
is exceeded), among them all beginnings and ends of outages before `T`. The availability of each
demand site with service is the part of the time during which it has service, given the outages; other
demand sites are not listed. The availability of each link is the time during which it is up, divided by
the length of the simulation. -/
theorem C34_availability_exact (ops : List Op) (cost : Link → Option Nat) (paths : Paths) (percent sim : ℚ)
    (draws : GEdge → List (ℚ × ℚ)) (late : Nat → Bool)
    (valid : (run {} ops).validateStatus = none) (hcn : NoCnSender (run {} ops))
    (hloop : NoSelfLink (run {} ops)) (hpop : PopInUse (run {} ops)) (hmed : SameMedium (run {} ops))
    (sp : ShortestPaths ((run {} ops).buildDigraph StatusType.active cost).edge .super paths)
    (hp : 0 ≤ percent ∧ percent ≤ 100) (hsim : 0 < sim)
    (hd : ∀ k, ∀ x ∈ draws k, 0 < x.1 ∧ 0 ≤ x.2) :
    ∃ A B ts T, reportAvailability (run {} ops) cost paths percent sim draws late = .ok (A, B) ∧
      ((0 : ℚ) :: ts).Pairwise (· ≤ ·) ∧ ts.getLast? = some T ∧ 0 < T ∧ T ≤ sim ∧
      ((∀ n, late n = false) → T = sim) ∧
      (∀ a b, FailingLink (run {} ops) a b → ∀ o ∈ schedule sim draws a b,
        (o.1 < T → o.1 ∈ ts) ∧ (o.2 < T → o.2 ∈ ts)) ∧
      (∀ d, Served (run {} ops) [] [] d →
        A.get? (.demand d) = some (upTime (ServedAt (run {} ops) (schedule sim draws) d) 0 ts / T)) ∧
      (∀ v, (∀ d, v = .demand d → ¬ Served (run {} ops) [] [] d) → A.get? v = none) ∧
      (∀ a b, FailingLink (run {} ops) a b →
        B.get? (.site a, .site b) = some (upTime (fun x => ¬ DownAt (schedule sim draws a b) x) 0 ts / sim)) ∧
      ∀ k, (∀ a b, k = (.site a, .site b) → ¬ FailingLink (run {} ops) a b) → B.get? k = none := by
  have inv := Inv.empty.run ops
  generalize run {} ops = t at *
  obtain ⟨K, r, hK, _, hlike, _⟩ := report_ok inv hcn hloop hpop sp
  obtain ⟨hwb, hlinks⟩ := failing_links inv valid hcn hloop hmed sp hlike
  have hsup : K.nodes.has .super = true := by rw [hlike.nodes]; exact build_super hpop
  obtain ⟨C, L, A, B, ts, T, h1, _, hCd, _, hLm, h3, h4, h5, h6, h7, h8, hA, hB⟩ :=
    availability_spec hsup hwb hp hsim hd late
  have hL : ∀ k, k ∈ L ↔ ∃ a b, k = (.site a, .site b) ∧ FailingLink t a b := fun k => (hLm k).trans (hlinks k)
  have hC : ∀ v, v ∈ C ↔ ∃ d, v = .demand d ∧ Served t [] [] d := by
    intro v
    rw [hCd, Like.fed_iff hlike, fed_iff inv]
  refine ⟨A, B, ts, T, ?_, h3, h4, h5, h6, h7, ?_, ?_, ?_, ?_, ?_⟩
  · unfold reportAvailability
    rw [hK]
    exact h1
  · intro a b hab o ho
    exact h8 _ ((hL _).2 ⟨a, b, rfl, hab⟩) o ho
  · intro d hs
    rw [hA, get?_map_key, if_pos ((hC _).2 ⟨d, rfl, hs⟩)]
    rw [upTime_congr (servedAt_iff inv hlike.edge hL _ d)]
  · intro v hv
    rw [hA, get?_map_key, if_neg]
    intro c
    obtain ⟨d, rfl, hs⟩ := (hC v).1 c
    exact hv d rfl hs
  · intro a b hab
    rw [hB, get?_map_key, if_pos ((hL _).2 ⟨a, b, rfl, hab⟩)]
    rfl
  · intro k hk
    rw [hB, get?_map_key, if_neg]
    intro c
    obtain ⟨a, b, rfl, hab⟩ := (hL k).1 c
    exact hk a b rfl hab

/-- C34 as stated: with positive times to failure, every demand site with service gets an availability
between 0 and 1, and exactly 1 if it has service at all times of the simulation. Links as well get
a value between 0 and 1. Missing: a `link_availability` of 0 (see `C34_zero_violation`). -/
theorem C34_availability_partial (ops : List Op) (cost : Link → Option Nat) (paths : Paths) (percent sim : ℚ)
    (draws : GEdge → List (ℚ × ℚ)) (late : Nat → Bool)
    (valid : (run {} ops).validateStatus = none) (hcn : NoCnSender (run {} ops))
    (hloop : NoSelfLink (run {} ops)) (hpop : PopInUse (run {} ops)) (hmed : SameMedium (run {} ops))
    (sp : ShortestPaths ((run {} ops).buildDigraph StatusType.active cost).edge .super paths)
    (hp : 0 ≤ percent ∧ percent ≤ 100) (hsim : 0 < sim)
    (hd : ∀ k, ∀ x ∈ draws k, 0 < x.1 ∧ 0 ≤ x.2) :
    ∃ A B, reportAvailability (run {} ops) cost paths percent sim draws late = .ok (A, B) ∧
      (∀ d, Served (run {} ops) [] [] d → ∃ v, A.get? (.demand d) = some v ∧ 0 ≤ v ∧ v ≤ 1 ∧
        ((∀ x, 0 ≤ x → x < sim → ServedAt (run {} ops) (schedule sim draws) d x) → v = 1)) ∧
      (∀ a b, FailingLink (run {} ops) a b → ∃ v, B.get? (.site a, .site b) = some v ∧ 0 ≤ v ∧ v ≤ 1) := by
  obtain ⟨A, B, ts, T, h1, h2, h3, h4, h5, _, _, h8, _, h9, _⟩ := C34_availability_exact ops cost paths percent sim
    draws late valid hcn hloop hpop hmed sp hp hsim hd
  have hT : ((0 : ℚ) :: ts).getLast? = some T := by
    cases ts with
    | nil => simp at h3
    | cons x ts => rw [List.getLast?_cons_cons]; exact h3
  refine ⟨A, B, h1, fun d hs => ⟨_, h8 d hs, ?_, ?_, ?_⟩, fun a b hab => ⟨_, h9 a b hab, ?_, ?_⟩⟩
  · exact div_nonneg (upTime_nonneg h2) (le_of_lt h4)
  · rw [div_le_one h4]
    have := upTime_le (up := ServedAt (run {} ops) (schedule sim draws) d) h2 hT
    linarith
  · intro hall
    rw [upTime_full h2 hT (fun x hx hxT => hall x hx (lt_of_lt_of_le hxT h5)), sub_zero, div_self (ne_of_gt h4)]
  · exact div_nonneg (upTime_nonneg h2) (le_of_lt hsim)
  · rw [div_le_one hsim]
    have := upTime_le (up := fun x => ¬ DownAt (schedule sim draws a b) x) h2 hT
    linarith

/-- The hypotheses of C34 on the demo network, with the link between `B` and `Z` out of order from 1 to
3 of 8: the demand site behind it has availability 6/8, the one at the CN 1. -/
def demoDraws : GEdge → List (ℚ × ℚ) := fun k =>
  if k = (.site "B", .site "Z") then [(1, 2), (8, 1)] else [(9, 1)]

theorem ringDemo_medium : SameMedium (run {} ringDemo) := by
  intro a b l r hl hr
  have h : ∀ kl ∈ (run {} ringDemo).links, kl.2.isWireless = true := by decide +kernel
  exact (h _ (Dict.mem_of_get? _ hl)).trans (h _ (Dict.mem_of_get? _ hr)).symm

example (cost : Link → Option Nat) (late : Nat → Bool) : ∃ paths A B v,
    reportAvailability (run {} ringDemo) cost paths 99 8 demoDraws late = .ok (A, B) ∧
    A.get? (.demand "c") = some v ∧ v = 1 := by
  have inv := Inv.empty.run ringDemo
  obtain ⟨h1, h2, h3, h4⟩ := ringDemo_hyps
  obtain ⟨paths, sp⟩ := shortestPaths_exist ((run {} ringDemo).buildDigraph StatusType.active cost).edge .super
  obtain ⟨A, B, hr, hd, _⟩ := C34_availability_partial ringDemo cost paths 99 8 demoDraws late h4 h1 h2 h3
    ringDemo_medium sp (by norm_num) (by norm_num) (by
      intro k x hx
      unfold demoDraws at hx
      split at hx
      · simp only [List.mem_cons, List.not_mem_nil, or_false] at hx
        rcases hx with rfl | rfl <;> norm_num
      · simp only [List.mem_cons, List.not_mem_nil, or_false] at hx
        subst hx; norm_num)
  obtain ⟨v, hv, _, _, hv1⟩ := hd "c" ((served_iff inv _ _ _).1 (by decide +kernel))
  refine ⟨paths, A, B, v, hr, hv, hv1 fun x hx hx8 => ?_⟩
  -- at every time at most the link between `B` and `Z` is down
  have hdown : ∀ a b, DownAt (schedule 8 demoDraws a b) x → a = "B" ∧ b = "Z" ∧ 1 ≤ x ∧ x < 3 := by
    rintro a b ⟨o, ho, ho1, ho2⟩
    unfold schedule demoDraws at ho
    split at ho
    · rename_i hab
      simp only [Prod.mk.injEq, GNode.site.injEq] at hab
      norm_num [outages] at ho
      rcases ho with rfl | rfl
      · exact ⟨hab.1, hab.2, ho1, ho2⟩
      · dsimp only at ho1; linarith
    · norm_num [outages] at ho
      subst ho
      dsimp only at ho1; linarith
  have hbz : FailingLink (run {} ringDemo) "B" "Z" := by
    have h : ("B" : SiteId) < "Z" ∧ ∃ l ∈ (run {} ringDemo).links.get? ⟨"B", "Z"⟩,
        ∃ x ∈ (run {} ringDemo).sites.get? "B", ∃ y ∈ (run {} ringDemo).sites.get? "Z",
        l.isWireless = true ∧ InNetwork l.status ∧ InNetwork x.status ∧ x.siteType ≠ .cn ∧
        InNetwork y.status ∧ y.siteType ≠ .cn := by decide +kernel
    obtain ⟨h0, l, hl, x, hx, y, hy, h1, h2, h3, h4, h5, h6⟩ := h
    exact ⟨h0, l, x, y, hl, h1, h2, hx, h3, h4, hy, h5, h6⟩
  by_cases c : 1 ≤ x ∧ x < 3
  · refine ⟨[("B", "Z")], fun a b => ?_, (served_iff inv _ _ _).1 (by decide +kernel)⟩
    simp only [List.mem_singleton, Prod.mk.injEq]
    constructor
    · rintro ⟨rfl, rfl⟩
      refine ⟨hbz, (1, 3), ?_, c.1, c.2⟩
      norm_num [schedule, demoDraws, outages]
    · rintro ⟨_, h⟩
      exact ⟨(hdown a b h).1, (hdown a b h).2.1⟩
  · refine ⟨[], fun a b => ?_, (served_iff inv _ _ _).1 (by decide +kernel)⟩
    simp only [List.not_mem_nil, false_iff, not_and]
    intro _ h
    exact c (hdown a b h).2.2

/-- A POP and a DN, with a demand site at the POP. -/
def pairDemo : List Op := [
  .addSite { id := "P", siteType := .pop, status := .existing } false,
  .addSite { id := "A", siteType := .dn, status := .proposed, lat := 1 } false,
  .addSector { site := "P", node := 0, pos := 0, status := .existing },
  .addSector { site := "A", node := 0, pos := 0, status := .proposed },
  .addDemandSite { id := "p", connected := ["P"], demand := some 1 }] ++ radioPair "P" "A"

/-- Shortest path to the demand site in `pairDemo`. -/
def pairPaths : Paths := fun v =>
  match v with
  | .super => some [.super]
  | .site "P" => some [.super, .site "P"]
  | .site "A" => some [.super, .site "P", .site "A"]
  | .demand "p" => some [.super, .site "P", .demand "p"]
  | _ => none

/-- C34, violation: with a `link_availability` of 0, which the checks allow, the time to failure is always
0, so a link fails again at the very moment of its repair; the failure comes first and the simulation
ends in an exception. Here with times to repair 1 and 1. -/
theorem C34_zero_violation :
    (run {} pairDemo).validateStatus = none ∧
    reportAvailability (run {} pairDemo) (fun _ => some 1) pairPaths 0 2 (fun _ => [(0, 1), (0, 1)])
      (fun _ => false) = .error .planner := by
  decide +kernel

/-- C34, violation for links: if the time limit is exceeded, the values of the demand sites are put in
relation to the time simulated, those of the links are not. Here the simulation stops at 1 of 10, when
the only link fails for the first time: the demand site has availability 1, the link, up until then, has 1/10. -/
theorem C34_limit_violation :
    reportAvailability (run {} pairDemo) (fun _ => some 1) pairPaths 90 10 (fun _ => [(1, 1), (9, 1)])
      (fun _ => true) = .ok ([(.demand "p", 1)], [((.site "A", .site "P"), 1 / 10)]) := by
  decide +kernel

theorem failing_one_way {G : Graph} {u v : GNode} {a : EdgeAttr} (hk : a.kind = some (.link .wirelessBackhaul))
    (hrev : ¬ G.edge (v, u)) (L : List (GEdge × EdgeAttr)) (hL : ∀ x ∈ L, G.edge x.1) (h : ((u, v), a) ∈ L)
    (done : List GEdge) (hd : ∀ k ∈ done, ∃ x y, k = Graph.sortedEdge x y ∧ G.edge (x, y) ∧ G.edge (y, x)) :
    ∃ e, G.failing done L = .error e := by
  induction L generalizing done with
  | nil => simp at h
  | cons x L ih =>
    obtain ⟨⟨x, y⟩, b⟩ := x
    have hL' : ∀ x ∈ L, G.edge x.1 := fun x hx => hL x (List.mem_cons_of_mem _ hx)
    unfold Graph.failing
    rcases List.mem_cons.1 h with h | h
    · simp only [Prod.mk.injEq] at h
      obtain ⟨⟨rfl, rfl⟩, rfl⟩ := h
      rw [if_neg (by rw [hk]; simp)]
      have hn : Graph.sortedEdge u v ∉ done := by
        intro c
        obtain ⟨x, y, h1, h2, h3⟩ := hd _ c
        apply hrev
        rcases Graph.sortedEdge_cases u v with g1 | g1 <;> rcases Graph.sortedEdge_cases x y with g2 | g2 <;>
          rw [g1, g2] at h1 <;> simp only [Prod.mk.injEq] at h1 <;> rw [h1.1, h1.2] <;> assumption
      simp only [List.contains_iff_mem, hn, if_false]
      rw [if_neg (fun c => hrev ((Graph.hasEdge_iff _ _ _).1 c))]
      exact ⟨_, rfl⟩
    · split
      · exact ih hL' h done hd
      split
      · exact ih hL' h done hd
      split
      · rename_i hr
        apply ih hL' h
        intro k hk
        rcases List.mem_append.1 hk with hk | hk
        · exact hd k hk
        · rw [List.mem_singleton] at hk
          exact ⟨x, y, hk, hL _ List.mem_cons_self, (Graph.hasEdge_iff _ _ _).1 hr⟩
      · exact ⟨_, rfl⟩

/-- The simulation refuses a graph with a radio link between DNs and POPs in one direction only. -/
theorem C34_one_way_refused (G : Graph) (percent sim : ℚ) (draws : GEdge → List (ℚ × ℚ)) (late : Nat → Bool)
    (u v : GNode) (a : EdgeAttr) (h : ((u, v), a) ∈ G.edges) (hk : a.kind = some (.link .wirelessBackhaul))
    (hrev : (v, u) ∉ G.edges.keys) : ∃ e, G.availability percent sim draws late = .error e := by
  unfold Graph.availability
  split
  · exact ⟨_, rfl⟩
  split
  · exact ⟨_, rfl⟩
  split
  · exact ⟨_, rfl⟩
  obtain ⟨e, he⟩ := failing_one_way hk hrev G.edges (fun x hx => List.mem_map.2 ⟨x, hx, rfl⟩) h [] (by simp)
  rw [he]
  exact ⟨_, rfl⟩

example : let G : Graph := { edges := [((.site "A", .site "B"), { kind := some (.link .wirelessBackhaul) })] }
    ((GNode.site "A", GNode.site "B"), { kind := some (.link .wirelessBackhaul) }) ∈ G.edges ∧
      (GNode.site "B", GNode.site "A") ∉ G.edges.keys := by decide

end Verif
