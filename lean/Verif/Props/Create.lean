import Verif.Lemmas.CreateLoop

/-! # C123: sectors that the planner created pass its own check -/

namespace Verif
open Spec Verif.Topology

/-- The device that a search is about. -/
def Search.radio (q : Search) : Radio := { nodes := q.nodes, perNode := q.perNode, scan := q.scan }

theorem Search.tiled (q : Search) (hs : 0 < q.scan) {out : List (List ℚ)} (h : q.findBest = .ok out) :
    Tiled q.radio out := by
  obtain ⟨h1, h2, _, h4⟩ := C121_apart q hs out h
  refine ⟨h1, ?_, h4⟩
  intro azs ha
  obtain ⟨k, hk, e⟩ := h2 azs ha
  have hk' : (k : ℚ) < 120 := by exact_mod_cast hk
  have k0 : (0 : ℚ) ≤ k := Nat.cast_nonneg _
  exact ⟨3 * k, ⟨by linarith, by linarith⟩, e⟩

theorem sites_nodup (ops : List Op) : (((run {} ops).sites.vals).map Site.id).Nodup := by
  have inv := Inv.empty.run ops
  generalize run {} ops = t at *
  have : t.sites.vals.map Site.id = t.sites.keys := by
    unfold Dict.vals Dict.keys
    rw [List.map_map]
    apply List.map_congr_left
    rintro ⟨k, v⟩ h
    exact inv.site_id k v ((Dict.mem_iff_get? inv.nd_sites k v).1 h)
  rw [this]
  exact inv.nd_sites

/-- C123 for distribution sites: creating the sectors a second time raises no
error and changes nothing, if the devices have at most two sectors per node, or
no node has sectors on both sides of north (its azimuths increase). Missing:
nodes of three and more sectors across north (`C123_dn_violation`). -/
theorem C123_dn_partial (ops : List Op) (mean : List ℚ → ℚ) (hm : ComputesMean mean) (q : SiteId → Search)
    (hq : ∀ s, 0 < (q s).scan ∧ 0 < (q s).perNode ∧ (q s).scan * (q s).perNode < 360)
    (ho : ∀ s out, (q s).findBest = .ok out → (q s).perNode ≤ 2 ∨ ∀ azs ∈ out, azs.Pairwise (· < ·))
    (t' : Topology)
    (h : createDnSectors mean (fun s => (q s).radio) (fun s => (q s).findBest) (run {} ops) = (t', none)) :
    t'.sites = (run {} ops).sites ∧ t'.links = (run {} ops).links ∧
      createDnSectors mean (fun s => (q s).radio) (fun s => (q s).findBest) t' = (t', none) := by
  apply createLoop_again mean _ .dn _ _ _ t' (sites_nodup ops) _ _ h
  · intro s hs
    rw [if_neg (of_decide_eq_true hs)]
  · intro s _ _ angles ha
    obtain ⟨q1, q2, q3⟩ := hq s.id
    exact tiled_check hm (r := (q s.id).radio) q1 q2 q3 ((q s.id).tiled q1 ha) (ho s.id angles ha) s

theorem roundHalfEven_nonneg {x : ℚ} (h : 0 ≤ x) : 0 ≤ roundHalfEven x := by
  have h0 : 0 ≤ ⌊x⌋ := Int.floor_nonneg.2 h
  unfold roundHalfEven
  dsimp only
  split_ifs <;> omega

theorem mapM_nodes (scan : ℚ) (perNode : ℕ) (hs : 0 < scan) (f : ℕ → ℚ) (l : List ℕ) :
    l.mapM (fun i => nodeAzimuths (f i) perNode scan) =
      .ok (l.map (fun i => nodeSectors (f i) scan perNode)) := by
  have : (fun i => nodeAzimuths (f i) perNode scan) =
      fun i => (Except.ok (nodeSectors (f i) scan perNode) : Except Err _) := by
    funext i; exact nodeAzimuths_eq _ _ _ hs
  rw [this]
  induction l with
  | nil => rfl
  | cons k ks ih => rw [List.mapM_cons, ih]; rfl

/-- What the search for client sites returns. -/
theorem equidistant_ok {r : Radio} (hs : 0 < r.scan) {angles : List ℚ} {out : List (List ℚ)}
    (h : equidistant r angles = .ok out) :
    out = [] ∨ ∃ (n : ℕ) (c : ℚ), 0 < n ∧ n ≤ r.nodes ∧ r.scan * r.perNode ≤ 360 / n ∧ 0 ≤ c ∧ c < 360 / n ∧
      out = (List.range n).map (fun i : ℕ => nodeSectors (c + (i : ℚ) * (360 / n)) r.scan r.perNode) := by
  unfold equidistant at h
  dsimp only at h
  by_cases hw : r.scan * r.perNode = 0
  · rw [if_pos hw] at h; cases h
  · rw [if_neg hw] at h
    have hw0 : 0 < r.scan * r.perNode :=
      lt_of_le_of_ne (mul_nonneg (le_of_lt hs) (Nat.cast_nonneg _)) (Ne.symm hw)
    set n := min ⌊360 / (r.scan * r.perNode)⌋.toNat r.nodes with hn
    by_cases hn0 : n = 0
    · rw [if_pos hn0] at h; cases h
    · rw [if_neg hn0] at h
      have n0 : (0 : ℚ) < n := by exact_mod_cast Nat.pos_of_ne_zero hn0
      by_cases ha : angles = []
      · rw [if_pos ha] at h; cases h; exact Or.inl rfl
      · rw [if_neg ha] at h
        have hwn : r.scan * r.perNode ≤ 360 / n := by
          have h1 : n ≤ ⌊360 / (r.scan * r.perNode)⌋.toNat := min_le_left _ _
          have h2 : (n : ℤ) ≤ ⌊360 / (r.scan * r.perNode)⌋ := by
            have : 0 ≤ ⌊360 / (r.scan * r.perNode)⌋ := Int.floor_nonneg.2 (by positivity)
            omega
          rw [Int.le_floor] at h2
          have h3 : (n : ℚ) ≤ 360 / (r.scan * r.perNode) := by exact_mod_cast h2
          rw [le_div_iff₀ hw0] at h3
          rw [le_div_iff₀ n0]
          linarith
        split at h
        · cases h
        · next m ms hms =>
          rw [mapM_nodes r.scan r.perNode hs] at h
          cases h
          right
          generalize argminFrom ms 1 m 0 = b
          set steps := (roundHalfEven ((360 / (n : ℚ)) / ((Search.precision : ℕ) : ℚ))).toNat with hst
          refine ⟨n, _, Nat.pos_of_ne_zero hn0, min_le_right _ _, hwn, ?_, ?_, rfl⟩ <;>
          · by_cases hb : b < steps
            · rw [List.getD_eq_getElem _ _ (by simpa using hb), List.getElem_map, List.getElem_range]
              have s0 : (0 : ℚ) < steps := by exact_mod_cast (by omega : 0 < steps)
              have b0 : (0 : ℚ) ≤ b := Nat.cast_nonneg _
              have b1 : (b : ℚ) < steps := by exact_mod_cast hb
              first
              | positivity
              | rw [div_lt_iff₀ s0, mul_comm]
                exact mul_lt_mul_of_pos_left b1 (by positivity)
            · have e := List.getD_eq_default (d := (0 : ℚ)) ((List.range steps).map (fun i : ℕ => (i : ℚ) * (360 / n) / steps))
                (n := b) (by simpa using hb)
              first
              | exact le_of_eq e.symm
              | exact lt_of_eq_of_lt e (by positivity)

theorem equidistant_tiled {r : Radio} (hs : 0 < r.scan) {angles : List ℚ} {out : List (List ℚ)}
    (h : equidistant r angles = .ok out) : Tiled r out := by
  rcases equidistant_ok hs h with rfl | ⟨n, c, n0, hn, hw, c0, c1, rfl⟩
  · exact ⟨by simp, by simp, by simp⟩
  · have n0' : (0 : ℚ) < n := by exact_mod_cast n0
    have n1' : (1 : ℚ) ≤ n := by exact_mod_cast n0
    have arc0 : (0 : ℚ) < 360 / n := by positivity
    have full : (n : ℚ) * (360 / n) = 360 := by field_simp
    have arc1 : (360 : ℚ) / n ≤ 360 := div_le_self (by norm_num) n1'
    refine ⟨by simpa using hn, ?_, ?_⟩
    · intro azs ha
      obtain ⟨i, hi, rfl⟩ := List.mem_map.1 ha
      rw [List.mem_range] at hi
      have hi' : (i : ℚ) + 1 ≤ n := by exact_mod_cast hi
      have i0 : (0 : ℚ) ≤ i := Nat.cast_nonneg _
      refine ⟨_, ⟨?_, ?_⟩, rfl⟩
      · positivity
      · nlinarith
    · have hg : ((List.range n).map (fun i : ℕ => c + (i : ℚ) * (360 / n))).Pairwise
          (fun a b => r.scan * r.perNode ≤ b - a ∧ r.scan * r.perNode ≤ 360 - (b - a)) := by
        rw [List.pairwise_map]
        refine List.Pairwise.imp_of_mem ?_ List.pairwise_lt_range
        intro i j hi hj hij
        rw [List.mem_range] at hi hj
        have hij' : (i : ℚ) + 1 ≤ j := by exact_mod_cast hij
        have hj' : (j : ℚ) + 1 ≤ n := by exact_mod_cast hj
        have i0 : (0 : ℚ) ≤ i := Nat.cast_nonneg _
        constructor
        · nlinarith
        · nlinarith
      have := all_apart hs (le_trans hw arc1) hg
      rw [List.flatMap_def, List.map_map] at this
      exact this

/-- C123 for client sites. Missing as for distribution sites: nodes of three
and more sectors across north. -/
theorem C123_cn_partial (ops : List Op) (mean : List ℚ → ℚ) (hm : ComputesMean mean) (r : SiteId → Radio)
    (angles : SiteId → List ℚ)
    (hr : ∀ s, 0 < (r s).scan ∧ 0 < (r s).perNode ∧ (r s).scan * (r s).perNode < 360)
    (ho : ∀ s out, equidistant (r s) (angles s) = .ok out →
      (r s).perNode ≤ 2 ∨ ∀ azs ∈ out, azs.Pairwise (· < ·))
    (t' : Topology)
    (h : createCnSectors mean r (fun s => equidistant (r s) (angles s)) (run {} ops) = (t', none)) :
    t'.sites = (run {} ops).sites ∧ t'.links = (run {} ops).links ∧
      createCnSectors mean r (fun s => equidistant (r s) (angles s)) t' = (t', none) := by
  apply createLoop_again mean _ .cn _ _ _ t' (sites_nodup ops) _ _ h
  · intro s hs
    rw [if_pos (of_decide_eq_true hs)]
  · intro s _ _ out ha
    obtain ⟨q1, q2, q3⟩ := hr s.id
    exact tiled_check hm q1 q2 q3 (equidistant_tiled q1 ha) (ho s.id out ha) s

/-- A distribution site and a PoP, and a link. -/
def createOps : List Op := [
  .addSite { id := "A", siteType := .dn, status := .candidate } false,
  .addSite { id := "B", siteType := .pop, status := .existing } false,
  .addLink { tx := "A", rx := "B" }]

/-- B lies at `b` degrees from A; one node of `n` sectors of 20 degrees. -/
def createSearch (n : ℕ) (b : ℚ) (s : SiteId) : Search :=
  { angles := [if s = "A" then b else b + 180], dists := [100], isDist := [true], nodes := 1, perNode := n, scan := 20 }

/-- Without sectors the check plays no role. -/
theorem createLoop_mean (mean mean' : List ℚ → ℚ) (radio : SiteId → Radio) (want : Site → Bool)
    (best : SiteId → Except Err (List (List ℚ))) (have_ : SiteId → List Sector) (hh : ∀ s, have_ s = []) :
    ∀ (sites : List Site) (t : Topology),
      createLoop mean radio want best have_ t sites = createLoop mean' radio want best have_ t sites := by
  intro sites
  induction sites with
  | nil => intro t; rfl
  | cons s rest ih =>
    intro t
    unfold createLoop
    simp only [hh, validateSiteSectors]
    split
    · exact ih t
    · split
      · rfl
      · split
        · split
          · rfl
          · exact ih _
        · rfl

theorem createOps_empty (mean : List ℚ → ℚ) (radio : SiteId → Radio) (best : SiteId → Except Err (List (List ℚ))) :
    createDnSectors mean radio best (run {} createOps) = createDnSectors (fun _ => 0) radio best (run {} createOps) := by
  apply createLoop_mean
  intro s
  have : (run {} createOps).sectors = [] := by decide +kernel
  unfold sectorsOfType
  rw [this]
  rfl

/-- The first creation of the demonstration. -/
def createdOnce (n : ℕ) (b : ℚ) : Topology :=
  (createDnSectors (fun _ => 0) (fun s => (createSearch n b s).radio) (fun s => (createSearch n b s).findBest)
    (run {} createOps)).1

/-- Two sectors per node: the second creation is fine, although the node of A
has its sectors on both sides of north. -/
example (mean : List ℚ → ℚ) (hm : ComputesMean mean) :
    (createdOnce 2 0).sectors.vals.map Sector.azimuth = [359, 19, 161, 181] ∧
    createDnSectors mean (fun s => (createSearch 2 0 s).radio) (fun s => (createSearch 2 0 s).findBest)
      (createdOnce 2 0) = (createdOnce 2 0, none) := by
  refine ⟨by decide +kernel, ?_⟩
  refine (C123_dn_partial createOps mean hm (createSearch 2 0) ?_ (fun _ _ _ => Or.inl (le_refl _)) _ ?_).2.2
  · intro s
    refine ⟨?_, ?_, ?_⟩ <;> norm_num [createSearch]
  · rw [createOps_empty]
    refine Prod.ext rfl ?_
    show (createDnSectors _ _ _ _).2 = none
    decide +kernel

theorem createdOnce_site :
    ({ id := "A", siteType := .dn, status := .candidate } : Site) ∈ (createdOnce 3 6).sites.vals := by
  decide +kernel

theorem createdOnce_sectors : azimuthsOf ((createdOnce 3 6).sectorsOfType .dn "A") 0 = [346, 6, 26] ∧
    0 ∈ nodesOf ((createdOnce 3 6).sectorsOfType .dn "A") := by decide +kernel

theorem createdOnce_ok : (createDnSectors (fun _ => 0) (fun s => (createSearch 3 6 s).radio)
    (fun s => (createSearch 3 6 s).findBest) (run {} createOps)).2 = none := by decide +kernel

theorem createdOnce_azimuths : (createdOnce 3 6).sectors.vals.map (fun x => (x.site, x.azimuth)) =
    [("A", 346), ("A", 6), ("A", 26), ("B", 166), ("B", 186), ("B", 206)] := by decide +kernel

/-- C123 fails: three sectors of 20 degrees per node, and a neighbour at 6
degrees. The node is created at 346, 6 and 26 degrees. A second creation orders
these as 6, 346, 26, takes the sectors at 346 and 26 for neighbours, and ends in
an error. -/
theorem C123_dn_violation (mean : List ℚ → ℚ) (hm : ComputesMean mean) :
    createDnSectors mean (fun s => (createSearch 3 6 s).radio) (fun s => (createSearch 3 6 s).findBest)
      (run {} createOps) = (createdOnce 3 6, none) ∧
    (createdOnce 3 6).sectors.vals.map (fun x => (x.site, x.azimuth)) =
      [("A", 346), ("A", 6), ("A", 26), ("B", 166), ("B", 186), ("B", 206)] ∧
    ∃ e, (createDnSectors mean (fun s => (createSearch 3 6 s).radio) (fun s => (createSearch 3 6 s).findBest)
      (createdOnce 3 6)).2 = some e := by
  refine ⟨?_, createdOnce_azimuths, ?_⟩
  · rw [createOps_empty]
    exact Prod.ext rfl createdOnce_ok
  · have hA := createdOnce_site
    have hsec := createdOnce_sectors
    generalize createdOnce 3 6 = t at *
    have h2 : mean [346, 6, 26] = 6 := by
      apply hm
      have := node_mean (c := 6) (scan := 20) (n := 3) ⟨by norm_num, by norm_num⟩ (by norm_num) (by norm_num) (by norm_num)
      rwa [show nodeSectors 6 20 3 = [346, 6, 26] by decide +kernel] at this
    by_contra hcon
    have hnone : (createDnSectors mean (fun s => (createSearch 3 6 s).radio)
        (fun s => (createSearch 3 6 s).findBest) t).2 = none := by
      rw [← Option.not_isSome_iff_eq_none, Option.isSome_iff_exists]
      exact hcon
    have h : createLoop mean (fun s => (createSearch 3 6 s).radio) (fun s => decide (s.siteType ≠ .cn))
        (fun s => (createSearch 3 6 s).findBest) (t.sectorsOfType .dn) t t.sites.vals =
        (_, none) := Prod.ext rfl hnone
    obtain ⟨_, _, _, h4⟩ := createLoop_ok _ _ _ _ _ _ _ _ h
    have hne : t.sectorsOfType .dn "A" ≠ [] := by
      intro hv
      rw [hv] at hsec
      exact absurd hsec.1 (by decide +kernel)
    rcases h4 _ hA with ⟨_, hv⟩ | ⟨hv, _⟩
    · rcases (validate_iff _ _ _).1 hv with hv | ⟨_, _, _, _, hv, _⟩
      · exact hne hv
      · have h1 := hv 0 hsec.2 (by decide : 3 > 1)
        rw [show azimuthsOf (t.sectorsOfType .dn "A") 0 = [346, 6, 26] from hsec.1, h2] at h1
        exact absurd h1 (by decide +kernel)
    · exact hne hv

end Verif
