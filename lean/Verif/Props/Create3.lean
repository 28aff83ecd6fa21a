import Verif.Props.Create2

/-! # C125: what the check of the sectors of a site guarantees -/

namespace Verif
open Spec Verif.Topology

/-- C125, the shape: sectors that pass the check are all on one site, two
sectors of a node have different positions, there are at most as many nodes as
the device has, and every node has exactly the sectors of a node. -/
theorem C125_shape (mean : List ℚ → ℚ) (r : Radio) (xs : List Sector)
    (h : validateSiteSectors mean r xs = none) :
    (∀ x ∈ xs, ∀ y ∈ xs, x.site = y.site) ∧
    xs.Pairwise (fun x y => x.node = y.node → x.pos ≠ y.pos) ∧
    (xs.map Sector.node).toFinset.card ≤ r.nodes ∧
    ∀ x ∈ xs, xs.countP (fun y => y.node = x.node) = r.perNode := by
  rcases (validate_iff mean r xs).1 h with rfl | ⟨h1, h2, h3, h4, _, _⟩
  · simp
  · refine ⟨h1, h2, h3, ?_⟩
    intro x hx
    have := h4 x.node (List.mem_dedup.2 (List.mem_map_of_mem hx))
    unfold azimuthsOf at this
    rw [List.length_map] at this
    rw [List.countP_eq_length_filter]
    exact this

theorem mem_azimuthsOf {xs : List Sector} {x : Sector} (hx : x ∈ xs) : x.azimuth ∈ azimuthsOf xs x.node :=
  List.mem_map_of_mem (List.mem_filter.2 ⟨hx, by simp⟩)

theorem azimuthsOf_mem {xs : List Sector} {n : ℕ} {a : ℚ} (h : a ∈ azimuthsOf xs n) :
    ∃ x ∈ xs, x.node = n ∧ x.azimuth = a := by
  unfold azimuthsOf at h
  obtain ⟨x, hx, rfl⟩ := List.mem_map.1 h
  obtain ⟨h1, h2⟩ := List.mem_filter.1 hx
  exact ⟨x, h1, by simpa using h2, rfl⟩

/-- The outermost sectors of two nodes that pass the check. -/
theorem nodesApart_ends {scan : ℚ} {a b : List ℚ} (h : nodesApart scan a b = true)
    (ha : ∀ x ∈ a, IsBearing x) (hb : ∀ x ∈ b, IsBearing x) (na : a ≠ []) (nb : b ≠ []) :
    scan ≤ bearingGap (a.headD 0) (b.headD 0) ∧ scan ≤ bearingGap (a.getLastD 0) (b.headD 0) ∧
    scan ≤ bearingGap (a.headD 0) (b.getLastD 0) ∧ scan ≤ bearingGap (a.getLastD 0) (b.getLastD 0) := by
  have hd : ∀ l : List ℚ, l ≠ [] → (∀ x ∈ l, IsBearing x) → IsBearing (l.headD 0) ∧ IsBearing (l.getLastD 0) := by
    intro l hl hm
    cases l with
    | nil => exact absurd rfl hl
    | cons x l =>
      refine ⟨hm _ (by simp), hm _ ?_⟩
      have e : (x :: l).getLastD 0 = (x :: l).getLast (List.cons_ne_nil _ _) := by
        rw [List.getLastD_cons, List.getLast_eq_getLastD]
      rw [e]
      exact List.getLast_mem _
  obtain ⟨a0, a1⟩ := hd a na ha
  obtain ⟨b0, b1⟩ := hd b nb hb
  unfold nodesApart at h
  dsimp only at h
  rw [Bool.and_eq_true, decide_eq_true_eq, abs_angleDelta a0 b0, abs_angleDelta a1 b0, abs_angleDelta a0 b1,
    abs_angleDelta a1 b1] at h
  obtain ⟨h, _⟩ := h
  exact ⟨le_trans h (le_trans (min_le_left _ _) (min_le_left _ _)),
    le_trans h (le_trans (min_le_left _ _) (min_le_right _ _)),
    le_trans h (le_trans (min_le_right _ _) (min_le_left _ _)),
    le_trans h (le_trans (min_le_right _ _) (min_le_right _ _))⟩

/-- A list of at most two elements is its ends. -/
theorem mem_ends {l : List ℚ} (h : l.length ≤ 2) {x : ℚ} (hx : x ∈ l) : x = l.headD 0 ∨ x = l.getLastD 0 := by
  match l, h with
  | [], _ => cases hx
  | [a], _ => left; simpa using hx
  | [a, b], _ =>
    simp only [List.mem_cons, List.not_mem_nil, or_false] at hx
    rcases hx with rfl | rfl
    · left; rfl
    · right; rfl

/-- C125, the angles, for devices with at most two sectors per node: two
sectors of different nodes are at least a sector's width apart, and two sectors
of one node are a sector's width apart, up to a hundredth of a degree. Missing:
devices with three and more sectors per node. -/
theorem C125_apart_partial (mean : List ℚ → ℚ) (r : Radio) (hr : r.perNode ≤ 2) (xs : List Sector)
    (hb : ∀ x ∈ xs, 0 ≤ x.azimuth ∧ x.azimuth < 360) (h : validateSiteSectors mean r xs = none) :
    xs.Pairwise (fun x y =>
      (x.node ≠ y.node → r.scan ≤ bearingGap x.azimuth y.azimuth) ∧
      (x.node = y.node → |bearingGap x.azimuth y.azimuth - r.scan| < 1 / 100)) := by
  rcases (validate_iff mean r xs).1 h with rfl | ⟨h1, h2, h3, h4, h5, h6⟩
  · exact List.Pairwise.nil
  · have hm : ∀ x ∈ xs, x.node ∈ nodesOf xs := fun x hx => List.mem_dedup.2 (List.mem_map_of_mem hx)
    have hbe : ∀ n, ∀ a ∈ azimuthsOf xs n, IsBearing a := by
      intro n a ha
      obtain ⟨x, hx, _, rfl⟩ := azimuthsOf_mem ha
      exact hb x hx
    rw [List.pairwise_iff_getElem]
    intro i j hi hj hij
    constructor
    · intro hne
      have hx := List.getElem_mem hi
      have hy := List.getElem_mem hj
      generalize xs[i] = x at *
      generalize xs[j] = y at *
      have hp := aroundMean_perm (mean (azimuthsOf xs x.node)) (azimuthsOf xs x.node)
      have hp' := aroundMean_perm (mean (azimuthsOf xs y.node)) (azimuthsOf xs y.node)
      have hap := h6 _ (hm x hx) _ (hm y hy) hne
      have lx : (aroundMean (mean (azimuthsOf xs x.node)) (azimuthsOf xs x.node)).length ≤ 2 := by
        rw [hp.length_eq, h4 _ (hm x hx)]; exact hr
      have ly : (aroundMean (mean (azimuthsOf xs y.node)) (azimuthsOf xs y.node)).length ≤ 2 := by
        rw [hp'.length_eq, h4 _ (hm y hy)]; exact hr
      have mx := hp.mem_iff.2 (mem_azimuthsOf hx)
      have my := hp'.mem_iff.2 (mem_azimuthsOf hy)
      obtain ⟨e1, e2, e3, e4⟩ := nodesApart_ends hap (fun a ha => hbe _ a (hp.mem_iff.1 ha))
        (fun a ha => hbe _ a (hp'.mem_iff.1 ha)) (List.ne_nil_of_mem mx) (List.ne_nil_of_mem my)
      rcases mem_ends lx mx with ex | ex <;> rcases mem_ends ly my with ey | ey <;> rw [ex, ey] <;> assumption
    · intro heq
      -- the node has the two sectors
      have hsub : [xs[i], xs[j]].Sublist (xs.filter (fun z => z.node = xs[i].node)) := by
        have s1 : [xs[i], xs[j]].Sublist xs := by
          have : [xs[i], xs[j]] = [i, j].map (fun k => xs.getD k xs[i]) := by
            simp [List.getElem?_eq_getElem hi, List.getElem?_eq_getElem hj]
          rw [this]
          have hsl : [i, j].Sublist (List.range xs.length) := by
            apply List.sublist_of_subperm_of_pairwise (r := (· < ·))
            · exact List.subperm_of_subset (by simp; omega) (by intro k hk; simp at hk; rcases hk with rfl | rfl <;> simpa)
            · simp [hij]
            · exact List.pairwise_lt_range
          have := hsl.map (fun k => xs.getD k xs[i])
          refine this.trans ?_
          have e : (List.range xs.length).map (fun k => xs.getD k xs[i]) = xs := by
            apply List.ext_getElem
            · simp
            · intro k h1 h2
              simp [List.getElem?_eq_getElem h2]
          rw [e]
        have := s1.filter (fun z => decide (z.node = xs[i].node))
        rwa [List.filter_cons_of_pos (by simp), List.filter_cons_of_pos (by simpa using heq.symm), List.filter_nil] at this
      have hx := List.getElem_mem hi
      have hy := List.getElem_mem hj
      have hlen := h4 _ (hm _ hx)
      have hsub' : [xs[i].azimuth, xs[j].azimuth].Sublist (azimuthsOf xs xs[i].node) := by
        unfold azimuthsOf
        exact hsub.map Sector.azimuth
      have h22 := hsub'.length_le
      have hp2 : r.perNode = 2 := by
        rw [hlen] at h22
        simp only [List.length_cons, List.length_nil] at h22
        omega
      have hazs : azimuthsOf xs xs[i].node = [xs[i].azimuth, xs[j].azimuth] :=
        (hsub'.eq_of_length (by rw [hlen, hp2]; rfl)).symm
      have hev := h5 _ (hm _ hx) (by omega)
      have hp := aroundMean_perm (mean (azimuthsOf xs xs[i].node)) (azimuthsOf xs xs[i].node)
      rw [hazs] at hp hev
      have B := hb _ hx
      have B' := hb _ hy
      generalize xs[i].azimuth = a at *
      generalize xs[j].azimuth = b at *
      generalize aroundMean (mean [a, b]) [a, b] = l at *
      have hl : l = [a, b] ∨ l = [b, a] := by
        have := hp.length_eq
        match l, this with
        | [c, d], _ =>
          have hc : c ∈ [a, b] := hp.mem_iff.1 (by simp)
          have hd : d ∈ [a, b] := hp.mem_iff.1 (by simp)
          simp only [List.mem_cons, List.not_mem_nil, or_false] at hc hd
          rcases hc with rfl | rfl
          · left
            have := (List.perm_cons c).1 hp
            rw [List.perm_singleton] at this
            rw [this]
          · right
            have := (List.perm_cons c).1 (hp.trans (List.Perm.swap _ _ _))
            rw [List.perm_singleton] at this
            rw [this]
      rcases hl with rfl | rfl
      · simp only [evenlySpaced, Bool.and_true, decide_eq_true_eq] at hev
        rw [abs_angleDelta B B'] at hev
        exact hev
      · simp only [evenlySpaced, Bool.and_true, decide_eq_true_eq] at hev
        rw [abs_angleDelta B' B, bearingGap_comm] at hev
        exact hev

/-- C125 for devices with one sector per node: the check passes exactly when
the shape is right and any two sectors are at least a sector's width apart. -/
theorem C125_single (mean : List ℚ → ℚ) (r : Radio) (hr : r.perNode = 1) (hs : 0 < r.scan) (xs : List Sector)
    (hb : ∀ x ∈ xs, 0 ≤ x.azimuth ∧ x.azimuth < 360) :
    validateSiteSectors mean r xs = none ↔
      (∀ x ∈ xs, ∀ y ∈ xs, x.site = y.site) ∧ xs.length ≤ r.nodes ∧
      xs.Pairwise (fun x y => x.node ≠ y.node ∧ r.scan ≤ bearingGap x.azimuth y.azimuth) := by
  constructor
  · intro h
    have hap := C125_apart_partial mean r (by omega) xs hb h
    obtain ⟨h1, h2, h3, h4⟩ := C125_shape mean r xs h
    have hnd : xs.Pairwise (fun x y => x.node ≠ y.node) := by
      rw [List.pairwise_iff_getElem]
      intro i j hi hj hij e
      have hc := h4 _ (List.getElem_mem hi)
      rw [hr, List.countP_eq_length_filter] at hc
      have h2' := (List.pairwise_iff_getElem.1 h2) i j hi hj hij e
      have mi : xs[i] ∈ xs.filter (fun y => y.node = xs[i].node) := List.mem_filter.2 ⟨List.getElem_mem hi, by simp⟩
      have mj : xs[j] ∈ xs.filter (fun y => y.node = xs[i].node) := List.mem_filter.2 ⟨List.getElem_mem hj, by simpa using e.symm⟩
      obtain ⟨z, hz⟩ := List.length_eq_one_iff.1 hc
      rw [hz, List.mem_singleton] at mi mj
      exact h2' (by rw [mi, mj])
    refine ⟨h1, ?_, ?_⟩
    · have : (xs.map Sector.node).Nodup := List.pairwise_map.2 hnd
      rw [List.toFinset_card_of_nodup this, List.length_map] at h3
      exact h3
    · exact (hnd.and hap).imp fun h => ⟨h.1, h.2.1 h.1⟩
  · rintro ⟨h1, h2, h3⟩
    rw [validate_iff]
    right
    have hnd : (xs.map Sector.node).Nodup := List.pairwise_map.2 (h3.imp fun h => h.1)
    have haz : ∀ n ∈ nodesOf xs, ∃ x ∈ xs, x.node = n ∧ azimuthsOf xs n = [x.azimuth] := by
      intro n hn
      unfold nodesOf at hn
      rw [List.mem_dedup] at hn
      obtain ⟨x, hx, rfl⟩ := List.mem_map.1 hn
      refine ⟨x, hx, rfl, ?_⟩
      have hl : (azimuthsOf xs x.node).length = 1 := by
        unfold azimuthsOf
        rw [List.length_map]
        have := List.count_eq_one_of_mem hnd (List.mem_map_of_mem (f := Sector.node) hx)
        rw [List.count_eq_countP, List.countP_map, List.countP_eq_length_filter] at this
        rw [← this]
        congr 1
      obtain ⟨z, hz⟩ := List.length_eq_one_iff.1 hl
      have := mem_azimuthsOf hx
      rw [hz, List.mem_singleton] at this
      rw [hz, this]
    have har : ∀ (m a : ℚ), aroundMean m [a] = [a] := by
      intro m a
      have := aroundMean_perm m [a]
      rwa [List.perm_singleton] at this
    refine ⟨h1, h3.imp fun h e => absurd e h.1, ?_, ?_, ?_, ?_⟩
    · unfold nodesOf
      rw [List.Nodup.dedup hnd, List.length_map]
      exact h2
    · intro n hn
      obtain ⟨x, _, _, e⟩ := haz n hn
      rw [e, hr]; rfl
    · intro n _ hp
      omega
    · intro n hn m hm hnm
      obtain ⟨x, hx, ex, e⟩ := haz n hn
      obtain ⟨y, hy, ey, e'⟩ := haz m hm
      rw [e, e', har, har]
      have hg : r.scan ≤ bearingGap x.azimuth y.azimuth := by
        have hxy : x ≠ y := by rintro rfl; exact hnm (ex.symm.trans ey)
        have := (h3.imp (S := fun x y => r.scan ≤ bearingGap x.azimuth y.azimuth) fun h => h.2)
        have : Std.Symm (fun x y : Sector => r.scan ≤ bearingGap x.azimuth y.azimuth) :=
          ⟨fun _ _ h => by rw [bearingGap_comm]; exact h⟩
        exact List.Pairwise.forall ‹_› hx hy hxy
      have bx := hb x hx
      have bY := hb y hy
      have hne : x.azimuth ≠ y.azimuth := by
        intro e
        rw [e] at hg
        have : bearingGap y.azimuth y.azimuth ≤ 0 := by unfold bearingGap; simp
        linarith
      unfold nodesApart insideInterval
      simp only [List.headD_cons, List.getLastD_cons, List.getLastD_nil, le_refl, if_true, min_self]
      rw [abs_angleDelta bx bY, Bool.and_eq_true, decide_eq_true_eq]
      refine ⟨hg, ?_⟩
      have n1 : ¬ (y.azimuth ≥ x.azimuth ∧ y.azimuth ≤ x.azimuth) := fun h => hne (le_antisymm h.1 h.2)
      have n2 : ¬ (x.azimuth ≥ y.azimuth ∧ x.azimuth ≤ y.azimuth) := fun h => hne (le_antisymm h.2 h.1)
      rw [decide_eq_false n1, decide_eq_false n2]
      rfl

/-- A site with two nodes of one sector of 90 degrees each. -/
def checkDemo (a b : ℚ) : List Sector :=
  [{ site := "A", node := 0, pos := 0, azimuth := a }, { site := "A", node := 1, pos := 0, azimuth := b }]

example : validateSiteSectors (fun l => l.headD 0) { nodes := 2, perNode := 1, scan := 90 } (checkDemo 350 80) = none := by
  decide +kernel

example : validateSiteSectors (fun l => l.headD 0) { nodes := 2, perNode := 1, scan := 90 } (checkDemo 350 79) ≠ none := by
  decide +kernel

/-- Two nodes of two sectors of 30 degrees. -/
example : validateSiteSectors (fun l => l.headD 0) { nodes := 2, perNode := 2, scan := 30 }
    [{ site := "A", node := 0, pos := 0, azimuth := 350 }, { site := "A", node := 0, pos := 1, azimuth := 20 },
     { site := "A", node := 3, pos := 5, azimuth := 100 }, { site := "A", node := 3, pos := 4, azimuth := 130 }] = none := by
  decide +kernel

end Verif
