import Verif.Lemmas.CreateMean
import Verif.Props.Solution

/-! # The sectors that are created, and the loop that creates them -/

namespace Verif
open Spec

/-- The sectors of a site lie side by side: at most `nodes` nodes, each with its
sectors around one bearing, all sectors at least a sector's width apart. -/
structure Tiled (r : Radio) (out : List (List ℚ)) : Prop where
  len : out.length ≤ r.nodes
  node : ∀ azs ∈ out, ∃ c, IsBearing c ∧ azs = nodeSectors c r.scan r.perNode
  apart : out.flatten.Pairwise (fun a b => r.scan ≤ bearingGap a b)

/-- The sectors of consecutive nodes. -/
def blocks (s : Site) (k : ℕ) (angles : List (List ℚ)) : List Sector :=
  (angles.zipIdx k).flatMap fun (node, i) => node.zipIdx.map fun (az, j) =>
    { site := s.id, node := i, pos := j, azimuth := az, status := .candidate,
      typ := if s.siteType = .cn then .cn else .dn }

theorem blocks_nil (s : Site) (k : ℕ) : blocks s k [] = [] := rfl

theorem blocks_cons (s : Site) (k : ℕ) (a : List ℚ) (as : List (List ℚ)) :
    blocks s k (a :: as) = (a.zipIdx.map fun (az, j) =>
      ({ site := s.id, node := k, pos := j, azimuth := az, status := .candidate,
         typ := if s.siteType = .cn then .cn else .dn } : Sector)) ++ blocks s (k + 1) as := by
  unfold blocks
  rw [List.zipIdx_cons, List.flatMap_cons]

theorem mem_blocks {s : Site} {x : Sector} : ∀ {angles : List (List ℚ)} {k : ℕ}, x ∈ blocks s k angles →
    x.site = s.id ∧ (x.typ = if s.siteType = .cn then .cn else .dn) ∧ x.status = .candidate ∧
      k ≤ x.node ∧ x.node < k + angles.length := by
  intro angles
  induction angles with
  | nil => intro k h; rw [blocks_nil] at h; cases h
  | cons a as ih =>
    intro k h
    rw [blocks_cons, List.mem_append] at h
    rcases h with h | h
    · obtain ⟨⟨az, j⟩, _, rfl⟩ := List.mem_map.1 h
      exact ⟨rfl, rfl, rfl, le_refl _, by simp⟩
    · obtain ⟨h1, h2, h3, h4, h5⟩ := ih h
      exact ⟨h1, h2, h3, by omega, by simp only [List.length_cons]; omega⟩

theorem azimuthsOf_blocks (s : Site) (n : ℕ) : ∀ (angles : List (List ℚ)) (k : ℕ),
    azimuthsOf (blocks s k angles) (k + n) = angles.getD n [] := by
  intro angles
  induction angles generalizing n with
  | nil => intro k; simp [blocks_nil, azimuthsOf]
  | cons a as ih =>
    intro k
    have ap : ∀ (xs ys : List Sector) (m : ℕ), azimuthsOf (xs ++ ys) m = azimuthsOf xs m ++ azimuthsOf ys m := by
      intro xs ys m; simp [azimuthsOf]
    rw [blocks_cons, ap]
    cases n with
    | zero =>
      have e1 : azimuthsOf (blocks s (k + 1) as) (k + 0) = [] := by
        unfold azimuthsOf
        rw [List.map_eq_nil_iff, List.filter_eq_nil_iff]
        intro x hx
        have := (mem_blocks hx).2.2.2.1
        simp only [decide_eq_true_eq]
        omega
      rw [e1]
      unfold azimuthsOf
      rw [List.filter_eq_self.2 (by
        intro x hx
        obtain ⟨⟨az, j⟩, _, rfl⟩ := List.mem_map.1 hx
        simp), List.map_map]
      rw [List.append_nil]
      show a.zipIdx.map Prod.fst = _
      rw [List.zipIdx_map_fst]
      simp
    | succ n =>
      have e1 : azimuthsOf (a.zipIdx.map fun (az, j) =>
          ({ site := s.id, node := k, pos := j, azimuth := az, status := .candidate,
             typ := if s.siteType = .cn then .cn else .dn } : Sector)) (k + (n + 1)) = [] := by
        unfold azimuthsOf
        rw [List.map_eq_nil_iff, List.filter_eq_nil_iff]
        intro x hx
        obtain ⟨⟨az, j⟩, _, rfl⟩ := List.mem_map.1 hx
        simp
      rw [e1, List.nil_append, show k + (n + 1) = (k + 1) + n by omega, ih]
      simp

theorem blocks_positions (s : Site) : ∀ (angles : List (List ℚ)) (k : ℕ),
    (blocks s k angles).Pairwise (fun x y => x.node = y.node → x.pos ≠ y.pos) := by
  intro angles
  induction angles with
  | nil => intro k; exact List.Pairwise.nil
  | cons a as ih =>
    intro k
    rw [blocks_cons, List.pairwise_append]
    refine ⟨?_, ih _, ?_⟩
    · rw [List.pairwise_map]
      have hp : (a.zipIdx).Pairwise (fun x y => x.2 ≠ y.2) := by
        have : (a.zipIdx.map Prod.snd).Nodup := by
          rw [List.zipIdx_map_snd]
          exact List.nodup_range'
        exact List.pairwise_map.1 this
      exact hp.imp (S := _) (fun {x y} h (_ : k = k) => (h : x.2 ≠ y.2))
    · intro x hx y hy e
      obtain ⟨⟨az, j⟩, _, rfl⟩ := List.mem_map.1 hx
      have := (mem_blocks hy).2.2.2.1
      dsimp only at e
      omega

theorem newSectors_eq (s : Site) (angles : List (List ℚ)) : Topology.newSectors s angles = blocks s 0 angles := rfl

/-- Sectors side by side pass the check, if no node crosses north or a node has
at most two sectors. -/
theorem tiled_check {mean : List ℚ → ℚ} (hm : ComputesMean mean) {r : Radio} (hs : 0 < r.scan)
    (hp : 0 < r.perNode) (hw : r.scan * r.perNode < 360) {out : List (List ℚ)} (ht : Tiled r out)
    (ho : r.perNode ≤ 2 ∨ ∀ azs ∈ out, azs.Pairwise (· < ·)) (s : Site) :
    validateSiteSectors mean r (Topology.newSectors s out) = none := by
  rw [newSectors_eq, validate_iff]
  right
  have hmem : ∀ n ∈ nodesOf (blocks s 0 out), n < out.length := by
    intro n hn
    unfold nodesOf at hn
    rw [List.mem_dedup] at hn
    obtain ⟨x, hx, rfl⟩ := List.mem_map.1 hn
    have := (mem_blocks hx).2.2.2.2
    omega
  have haz : ∀ n (h : n < out.length), azimuthsOf (blocks s 0 out) n = out[n] := by
    intro n h
    have := azimuthsOf_blocks s n out 0
    rw [Nat.zero_add] at this
    rw [this, List.getD_eq_getElem _ _ h]
  have hnode : ∀ n (h : n < out.length), ∃ c, IsBearing c ∧ out[n] = nodeSectors c r.scan r.perNode ∧
      aroundMean (mean out[n]) out[n] = nodeSectors c r.scan r.perNode := by
    intro n h
    obtain ⟨c, hc, e⟩ := ht.node _ (List.getElem_mem h)
    refine ⟨c, hc, e, ?_⟩
    have ho' : r.perNode ≤ 2 ∨ (nodeSectors c r.scan r.perNode).Pairwise (· < ·) := by
      rcases ho with ho | ho
      · exact Or.inl ho
      · right; rw [← e]; exact ho _ (List.getElem_mem h)
    rw [e, hm _ _ (node_mean hc hs hw hp), node_around hc hs hw hp ho']
  refine ⟨?_, blocks_positions s out 0, ?_, ?_, ?_, ?_⟩
  · intro x hx y hy
    rw [(mem_blocks hx).1, (mem_blocks hy).1]
  · refine le_trans ?_ ht.len
    have : (nodesOf (blocks s 0 out)).length ≤ (List.range out.length).length :=
      (List.subperm_of_subset (List.nodup_dedup _) (fun n hn => List.mem_range.2 (hmem n hn))).length_le
    simpa using this
  · intro n hn
    obtain ⟨c, _, e, _⟩ := hnode n (hmem n hn)
    rw [haz n (hmem n hn), e]
    simp [nodeSectors]
  · intro n hn h1
    obtain ⟨c, _, _, e⟩ := hnode n (hmem n hn)
    rw [haz n (hmem n hn), e]
    apply node_even hs
    have : (2 : ℚ) ≤ r.perNode := by exact_mod_cast h1
    nlinarith
  · intro n hn m hm' hnm
    obtain ⟨c, _, e1, e⟩ := hnode n (hmem n hn)
    obtain ⟨c', _, e1', e'⟩ := hnode m (hmem m hm')
    rw [haz n (hmem n hn), e, haz m (hmem m hm'), e']
    apply node_apart hs hw hp
    rw [← e1, ← e1']
    intro a ha b hb
    have hpw := (List.pairwise_flatten.1 ht.apart).2
    rw [List.pairwise_iff_getElem] at hpw
    rcases lt_or_gt_of_ne hnm with h | h
    · exact hpw n m (hmem n hn) (hmem m hm') h a ha b hb
    · rw [bearingGap_comm]
      exact hpw m n (hmem m hm') (hmem n hn) h b hb a ha

/-! ## The loop -/

namespace Topology

/-- Sectors that are added one by one. -/
theorem addSectors_ok : ∀ (xs : List Sector) (t t1 : Topology), foldOut addSector t xs = (t1, none) →
    t1.sites = t.sites ∧ t1.links = t.links ∧ t1.sectors.vals = t.sectors.vals ++ xs := by
  intro xs
  induction xs with
  | nil => intro t t1 h; cases h; simp
  | cons x xs ih =>
    intro t t1 h
    unfold foldOut addSector at h
    by_cases h1 : t.sectors.has x.id = true
    · rw [if_pos h1] at h; cases h
    · rw [if_neg h1] at h
      by_cases h2 : t.sites.has x.site = true
      · rw [if_pos h2] at h
        obtain ⟨g1, g2, g3⟩ := ih _ _ h
        refine ⟨g1, g2, ?_⟩
        rw [g3]
        dsimp only
        have hf : t.sectors.get? x.id = none := by
          rw [← Dict.has_eq_false_iff]
          simpa using h1
        rw [Dict.set_fresh _ _ _ hf]
        simp [Dict.vals]
      · rw [if_neg h2] at h; cases h

/-- What the loop adds for one site. -/
def added (want : Site → Bool) (best : SiteId → Except Err (List (List ℚ))) (have_ : SiteId → List Sector)
    (s : Site) : List Sector :=
  if (have_ s.id).length > 0 || !want s then []
  else match best s.id with
    | .ok angles => newSectors s angles
    | .error _ => []

theorem createLoop_ok (mean : List ℚ → ℚ) (radio : SiteId → Radio) (want : Site → Bool)
    (best : SiteId → Except Err (List (List ℚ))) (have_ : SiteId → List Sector) :
    ∀ (sites : List Site) (t t' : Topology), createLoop mean radio want best have_ t sites = (t', none) →
      t'.sites = t.sites ∧ t'.links = t.links ∧
      t'.sectors.vals = t.sectors.vals ++ sites.flatMap (added want best have_) ∧
      ∀ s ∈ sites, (((have_ s.id).length > 0 ∨ want s = false) ∧
          validateSiteSectors mean (radio s.id) (have_ s.id) = none) ∨
        (have_ s.id = [] ∧ want s = true ∧ ∃ angles, best s.id = .ok angles ∧
          (newSectors s angles = [] ∨ sectorCompat s.status .candidate = true)) := by
  intro sites
  induction sites with
  | nil => intro t t' h; cases h; simp
  | cons s rest ih =>
    intro t t' h
    unfold createLoop at h
    by_cases h1 : ((have_ s.id).length > 0 || !want s) = true
    · rw [if_pos h1] at h
      cases hv : validateSiteSectors mean (radio s.id) (have_ s.id) with
      | some e => rw [hv] at h; cases h
      | none =>
        rw [hv] at h
        obtain ⟨g1, g2, g3, g4⟩ := ih _ _ h
        refine ⟨g1, g2, ?_, ?_⟩
        · rw [g3, List.flatMap_cons]
          have : added want best have_ s = [] := by unfold added; rw [if_pos h1]
          rw [this]; rfl
        · intro x hx
          rcases List.mem_cons.1 hx with rfl | hx
          · left; exact ⟨by simpa using h1, hv⟩
          · exact g4 x hx
    · rw [if_neg h1] at h
      have h1' : have_ s.id = [] ∧ want s = true := by
        simpa using h1
      cases hb : best s.id with
      | error e => rw [hb] at h; cases h
      | ok angles =>
        rw [hb] at h
        dsimp only at h
        by_cases h2 : ((newSectors s angles).isEmpty || sectorCompat s.status .candidate) = true
        · rw [if_pos h2] at h
          cases hf : foldOut addSector t (newSectors s angles) with
          | mk t1 o =>
            rw [hf] at h
            cases o with
            | some e => cases h
            | none =>
              obtain ⟨a1, a2, a3⟩ := addSectors_ok _ _ _ hf
              obtain ⟨g1, g2, g3, g4⟩ := ih _ _ h
              refine ⟨g1.trans a1, g2.trans a2, ?_, ?_⟩
              · rw [g3, a3, List.flatMap_cons]
                have : added want best have_ s = newSectors s angles := by
                  unfold added; rw [if_neg h1, hb]
                rw [this, List.append_assoc]
              · intro x hx
                rcases List.mem_cons.1 hx with rfl | hx
                · right; exact ⟨h1'.1, h1'.2, angles, hb, by simpa using h2⟩
                · exact g4 x hx
        · rw [if_neg h2] at h; cases h

/-- A loop that only checks. -/
theorem createLoop_stay (mean : List ℚ → ℚ) (radio : SiteId → Radio) (want : Site → Bool)
    (best : SiteId → Except Err (List (List ℚ))) (have_ : SiteId → List Sector) (t : Topology) :
    ∀ (sites : List Site), (∀ s ∈ sites, (((have_ s.id).length > 0 ∨ want s = false) ∧
          validateSiteSectors mean (radio s.id) (have_ s.id) = none) ∨
        (have_ s.id = [] ∧ want s = true ∧ ∃ angles, best s.id = .ok angles ∧ newSectors s angles = [])) →
      createLoop mean radio want best have_ t sites = (t, none) := by
  intro sites
  induction sites with
  | nil => intro _; rfl
  | cons s rest ih =>
    intro h
    unfold createLoop
    rcases h s List.mem_cons_self with ⟨h1, h2⟩ | ⟨h1, h2, angles, h3, h4⟩
    · rw [if_pos (by simpa using h1), h2]
      exact ih fun x hx => h x (List.mem_cons_of_mem _ hx)
    · rw [if_neg (by simp [h1, h2]), h3]
      dsimp only
      rw [h4, if_pos (by simp)]
      exact ih fun x hx => h x (List.mem_cons_of_mem _ hx)

/-- The sectors of one of the sites. -/
theorem filter_added (ty : SectorType) {f : Site → List Sector}
    (hf : ∀ s, ∀ x ∈ f s, x.site = s.id ∧ x.typ = ty) :
    ∀ (sites : List Site), (sites.map Site.id).Nodup → ∀ s ∈ sites,
      (sites.flatMap f).filter (fun x => decide (x.typ = ty ∧ x.site = s.id)) = f s := by
  intro sites
  induction sites with
  | nil => intro _ s hs; cases hs
  | cons a rest ih =>
    intro hn s hs
    rw [List.map_cons, List.nodup_cons] at hn
    rw [List.flatMap_cons, List.filter_append]
    rcases List.mem_cons.1 hs with rfl | hs
    · rw [List.filter_eq_self.2 (fun x hx => by
        obtain ⟨h1, h2⟩ := hf _ x hx
        simp [h1, h2])]
      rw [List.filter_eq_nil_iff.2, List.append_nil]
      intro x hx
      obtain ⟨b, hb, hx⟩ := List.mem_flatMap.1 hx
      have h1 := (hf _ x hx).1
      simp only [decide_eq_true_eq, not_and]
      intro _ e
      exact hn.1 (by rw [← e, h1]; exact List.mem_map_of_mem hb)
    · rw [ih hn.2 s hs, List.filter_eq_nil_iff.2, List.nil_append]
      intro x hx
      have h1 := (hf _ x hx).1
      simp only [decide_eq_true_eq, not_and]
      intro _ e
      exact hn.1 (by rw [← h1, e]; exact List.mem_map_of_mem hs)

/-- Creating again: if what was created passes the check, nothing changes. -/
theorem createLoop_again (mean : List ℚ → ℚ) (radio : SiteId → Radio) (ty : SectorType) (want : Site → Bool)
    (best : SiteId → Except Err (List (List ℚ))) (t t' : Topology)
    (hn : (t.sites.vals.map Site.id).Nodup)
    (hty : ∀ s, want s = true → (if s.siteType = .cn then SectorType.cn else .dn) = ty)
    (hck : ∀ s ∈ t.sites.vals, want s = true → ∀ angles, best s.id = .ok angles →
      validateSiteSectors mean (radio s.id) (newSectors s angles) = none)
    (h : createLoop mean radio want best (t.sectorsOfType ty) t t.sites.vals = (t', none)) :
    t'.sites = t.sites ∧ t'.links = t.links ∧
      createLoop mean radio want best (t'.sectorsOfType ty) t' t'.sites.vals = (t', none) := by
  obtain ⟨h1, h2, h3, h4⟩ := createLoop_ok _ _ _ _ _ _ _ _ h
  refine ⟨h1, h2, ?_⟩
  rw [h1]
  have hf : ∀ s, ∀ x ∈ added want best (t.sectorsOfType ty) s, x.site = s.id ∧ x.typ = ty := by
    intro s x hx
    unfold added at hx
    split at hx
    · cases hx
    · next hw =>
      have hw' : want s = true := by
        simp at hw; exact hw.2
      split at hx
      · rw [newSectors_eq] at hx
        obtain ⟨m1, m2, _⟩ := mem_blocks hx
        exact ⟨m1, m2.trans (hty s hw')⟩
      · cases hx
  have hs : ∀ s ∈ t.sites.vals, t'.sectorsOfType ty s.id =
      t.sectorsOfType ty s.id ++ added want best (t.sectorsOfType ty) s := by
    intro s hs
    rw [← filter_added ty hf _ hn s hs]
    show t'.sectors.vals.filter (fun x => decide (x.typ = ty ∧ x.site = s.id)) = _
    rw [h3, List.filter_append]
    rfl
  apply createLoop_stay
  intro s hsm
  rw [hs s hsm]
  rcases h4 s hsm with ⟨g1, g2⟩ | ⟨g1, g2, angles, g3, g4⟩
  · left
    have e : added want best (t.sectorsOfType ty) s = [] := by
      unfold added; rw [if_pos (by simpa using g1)]
    rw [e, List.append_nil]
    exact ⟨g1, g2⟩
  · have e : added want best (t.sectorsOfType ty) s = newSectors s angles := by
      unfold added; rw [if_neg (by simp [g1, g2]), g3]
    rw [e, g1, List.nil_append]
    by_cases hne : newSectors s angles = []
    · right
      exact ⟨hne, g2, angles, g3, hne⟩
    · left
      exact ⟨Or.inl (List.length_pos_iff.2 hne), hck s hsm g2 angles g3⟩

end Topology
end Verif
