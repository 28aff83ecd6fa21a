import Verif.Props.Orient

/-! # C122: when sectors can be created; counterexamples to C121 and C122 -/

namespace Verif
open Spec

/-- The search as it is called before the optimization: no limits, no pair rules. -/
def BeforeOptimization (q : Search) : Prop :=
  NoPairRule q ∧ q.totalLimit = none ∧ q.dnLimit = none

theorem BeforeOptimization.within {q : Search} (h : BeforeOptimization q) (c : ℚ) : WithinLimits q c := by
  obtain ⟨_, h1, h2⟩ := h
  intro az _
  rw [h1, h2]
  exact ⟨fun _ h => (by cases h), fun _ h => (by cases h)⟩

/-- Nodes on multiples of three degrees need a whole number of steps each. -/
theorem pointing_room {W : ℚ} (hW : 0 < W) {n : ℕ} {s : List ℚ} (hn : 1 < n) (h : Pointing W n s) :
    (n : ℤ) * (3 * ⌈W / 3⌉) ≤ 360 := by
  obtain ⟨hc, hg, hp⟩ := h
  have hlen : s.length = n := hc
  -- the candidates
  have hk : ∀ i (hi : i < s.length), ∃ k : ℕ, k < 120 ∧ s[i] = 3 * k := fun i hi => hg _ (List.getElem_mem _)
  choose k hk1 hk2 using hk
  have gap : ∀ i j (hi : i < s.length) (hj : j < s.length), i < j →
      ⌈W / 3⌉ ≤ (k j hj : ℤ) - k i hi ∧ ⌈W / 3⌉ ≤ 120 - ((k j hj : ℤ) - k i hi) := by
    intro i j hi hj hij
    obtain ⟨g1, g2⟩ := List.pairwise_iff_getElem.1 hp i j hi hj hij
    rw [hk2 i hi, hk2 j hj] at g1 g2
    constructor <;> rw [Int.ceil_le] <;> push_cast <;> linarith
  have up : ∀ i (hi : i < s.length), (k 0 (by omega) : ℤ) + i * ⌈W / 3⌉ ≤ k i hi := by
    intro i
    induction i with
    | zero => intro hi; simp
    | succ i ih =>
      intro hi
      have h1 := ih (by omega)
      have h2 := (gap i (i + 1) (by omega) hi (by omega)).1
      push_cast
      linarith
  have h1 := up (n - 1) (by omega)
  have h2 := (gap 0 (n - 1) (by omega) (by omega) (by omega)).2
  have h3 : ((n - 1 : ℕ) : ℤ) = n - 1 := by omega
  rw [h3] at h1
  nlinarith

/-- Enough room for all nodes. -/
theorem pointing_exists {W : ℚ} (hW : 0 < W) {n : ℕ} (hn : n = 1 ∨ (n : ℤ) * (3 * ⌈W / 3⌉) ≤ 360) :
    ∃ s, Pointing W n s := by
  rcases hn with rfl | hn
  · exact ⟨[0], rfl, fun c hc => ⟨0, by norm_num, by simpa using hc⟩, List.pairwise_singleton _ _⟩
  · have hm : 0 < ⌈W / 3⌉ := Int.ceil_pos.2 (by linarith)
    obtain ⟨m, hm'⟩ : ∃ m : ℕ, ⌈W / 3⌉ = m := ⟨⌈W / 3⌉.toNat, by omega⟩
    rw [hm'] at hn hm
    have hWm : W ≤ 3 * m := by
      have := Int.le_ceil (W / 3)
      rw [hm'] at this
      push_cast at this
      linarith
    have hnm : n * m ≤ 120 := by
      have : (n : ℤ) * m ≤ 120 := by nlinarith
      exact_mod_cast this
    refine ⟨(List.range n).map (fun i => 3 * ((i * m : ℕ) : ℚ)), by simp, ?_, ?_⟩
    · intro c hc
      obtain ⟨i, hi, rfl⟩ := List.mem_map.1 hc
      rw [List.mem_range] at hi
      refine ⟨i * m, ?_, rfl⟩
      have : (i + 1) * m ≤ n * m := Nat.mul_le_mul_right _ hi
      have : 0 < m := by exact_mod_cast hm
      nlinarith
    · rw [List.pairwise_map]
      refine List.Pairwise.imp_of_mem ?_ List.pairwise_lt_range
      intro i j hi hj hij
      rw [List.mem_range] at hi hj
      have h1 : (i + 1) * m ≤ j * m := Nat.mul_le_mul_right _ hij
      have h2 : (j + 1) * m ≤ n * m := Nat.mul_le_mul_right _ hj
      have h1' : ((i : ℚ) + 1) * m ≤ j * m := by exact_mod_cast h1
      have h2' : ((j : ℚ) + 1) * m ≤ 120 := by exact_mod_cast le_trans h2 hnm
      have i0 : (0 : ℚ) ≤ (i : ℚ) * m := mul_nonneg (Nat.cast_nonneg _) (Nat.cast_nonneg _)
      push_cast
      constructor <;> linarith

/-- C122: exactly when sectors can be created before the optimization. For a
site with a neighbour the search fails exactly when the device has several nodes
and they do not fit on the circle once the width of a node is rounded up to a
multiple of three degrees. -/
theorem C122_creation (q : Search) (hq : Sensible q) (hb : BeforeOptimization q) (hN : q.angles ≠ []) :
    (∃ e, q.findBest = .error e) ↔
      1 < q.nodes ∧ 360 < (q.nodes : ℤ) * (3 * ⌈q.scan * q.perNode / 3⌉) := by
  have hW := q.width_pos hq
  constructor
  · rintro ⟨e, h⟩
    obtain ⟨_, _, _, hno⟩ := (C121_fails q hq hb.1 e).1 h
    by_contra hcon
    apply hno
    obtain ⟨s, hs⟩ := pointing_exists (n := q.nodes) hW (by
      by_cases h1 : q.nodes = 1
      · exact Or.inl h1
      · right
        by_contra h2
        exact hcon ⟨by have := hq.nodes_pos; omega, not_le.1 h2⟩)
    exact ⟨s, hs, fun c _ => hb.within c⟩
  · rintro ⟨h1, h2⟩
    refine ⟨.optimizer, (C121_fails q hq hb.1 .optimizer).2 ⟨rfl, hN, ⟨0, by norm_num, hb.within _⟩, ?_⟩⟩
    rintro ⟨s, hs, _⟩
    exact absurd (pointing_room hW h1 hs) (not_le.2 h2)

/-- C122 when the width of a node is a multiple of three degrees, or there is a
single node: the search before the optimization succeeds for every site.
Missing: other widths, for which it may fail (`C122_always_violation`). -/
theorem C122_always_partial (q : Search) (hq : Sensible q) (hb : BeforeOptimization q)
    (hw : q.nodes = 1 ∨ ∃ m : ℕ, q.scan * q.perNode = 3 * m) : ∃ out, q.findBest = .ok out := by
  by_cases hN : q.angles = []
  · exact ⟨[], C121_none q hq hb.1 (Or.inl hN)⟩
  · cases h : q.findBest with
    | ok out => exact ⟨out, rfl⟩
    | error e =>
      exfalso
      obtain ⟨h1, h2⟩ := (C122_creation q hq hb hN).1 ⟨e, h⟩
      rcases hw with hw | ⟨m, hm⟩
      · omega
      · have ht := hq.turn
        rw [hm] at h2 ht
        rw [show (3 * (m : ℚ)) / 3 = ((m : ℕ) : ℚ) by ring, Int.ceil_natCast] at h2
        have : (360 : ℚ) < (q.nodes : ℚ) * (3 * m) := by exact_mod_cast h2
        linarith

/-- Four nodes of one sector of 90 degrees, links to the north-east, the south
and the west. -/
def orientDemo : Search :=
  { angles := [45, 180, 270], dists := [100, 50, 200], isDist := [true, false, true],
    nodes := 4, perNode := 1, scan := 90 }

theorem orientDemo_sensible : Sensible orientDemo := by
  refine ⟨by decide +kernel, by decide +kernel, by decide +kernel, by decide +kernel, by decide +kernel,
    by decide +kernel, by decide +kernel, ?_⟩
  intro w h; cases h

theorem orientDemo_before : BeforeOptimization orientDemo := ⟨⟨rfl, rfl, Or.inl rfl⟩, rfl, rfl⟩

example : Sensible orientDemo ∧ NoPairRule orientDemo ∧ orientDemo.angles ≠ [] ∧
    (∃ k : ℕ, k < 120 ∧ WithinLimits orientDemo (3 * k)) ∧ ∃ out, orientDemo.findBest = .ok out :=
  ⟨orientDemo_sensible, orientDemo_before.1, by decide, ⟨0, by decide, orientDemo_before.within _⟩,
    C122_always_partial _ orientDemo_sensible orientDemo_before (Or.inr ⟨30, by decide +kernel⟩)⟩

/-- The result for the demonstration sees all three links. -/
example (out : List (List ℚ)) (h : orientDemo.findBest = .ok out) : seen orientDemo out.flatten = 3 := by
  obtain ⟨s, _, _, _, hbest⟩ := C121_best_partial orientDemo orientDemo_sensible orientDemo_before.1 (by decide)
    ⟨0, by decide, orientDemo_before.within _⟩ out h
  have h3 := (hbest [21, 111, 201, 291] ⟨rfl, (by
    intro c hc
    simp only [List.mem_cons, List.not_mem_nil, or_false] at hc
    rcases hc with rfl | rfl | rfl | rfl
    · exact ⟨7, by decide, by norm_num⟩
    · exact ⟨37, by decide, by norm_num⟩
    · exact ⟨67, by decide, by norm_num⟩
    · exact ⟨97, by decide, by norm_num⟩), by decide +kernel⟩ (fun c _ => orientDemo_before.within c)).1
  have h4 : seen orientDemo (([21, 111, 201, 291] : List ℚ).flatMap
      (fun c => nodeSectors c orientDemo.scan orientDemo.perNode)) = 3 := by decide +kernel
  have h5 : seen orientDemo out.flatten ≤ 3 := by
    unfold seen
    exact le_trans (List.length_filter_le _ _) (by decide)
  omega

/-- Nine nodes of one sector of 40 degrees: together exactly a full turn. -/
def orientNine : Search :=
  { angles := [45], dists := [100], isDist := [true], nodes := 9, perNode := 1, scan := 40 }

/-- C122 fails: nine nodes of 40 degrees are an admissible device, but creating
the sectors of any site with a neighbour ends in an error, since the nodes are
only ever pointed to multiples of three degrees. -/
theorem C122_always_violation : Sensible orientNine ∧ BeforeOptimization orientNine ∧
    ¬ ∃ out, orientNine.findBest = .ok out := by
  have hq : Sensible orientNine := by
    refine ⟨by decide +kernel, by decide +kernel, by decide +kernel, by decide +kernel, by decide +kernel,
      by decide +kernel, by decide +kernel, ?_⟩
    intro w h; cases h
  have hb : BeforeOptimization orientNine := ⟨⟨rfl, rfl, Or.inl rfl⟩, rfl, rfl⟩
  refine ⟨hq, hb, ?_⟩
  obtain ⟨e, he⟩ := (C122_creation orientNine hq hb (by decide)).2 (by decide +kernel)
  rintro ⟨out, h⟩
  rw [he] at h
  cases h

/-! ## Several channels: a node that serves two channels is dropped -/

/-- What the pruning of links on different channels does to one row. -/
def pruneRow (pairs : List (ℕ × ℕ)) (r : ℕ → Bool) : ℕ → Bool :=
  pairs.foldl (fun r p => if r p.1 && r p.2 then (fun j => if j = p.1 ∨ j = p.2 then false else r j) else r) r

theorem pruneSame_row {ι : Type} [DecidableEq ι] (idx : List ι) (hnd : idx.Nodup) (pairs : List (ℕ × ℕ))
    (m : ι → ℕ → Bool) (x : ι) (hx : x ∈ idx) : Search.pruneSame idx pairs m x = pruneRow pairs (m x) := by
  -- one pair
  have one : ∀ (p : ℕ × ℕ) (idx : List ι), idx.Nodup → ∀ m : ι → ℕ → Bool,
      (idx.foldl (fun m x => if m x p.1 && m x p.2 then Search.zero (Search.zero m x p.1) x p.2 else m) m) x =
      if x ∈ idx then
        (if m x p.1 && m x p.2 then (fun j => if j = p.1 ∨ j = p.2 then false else m x j) else m x)
      else m x := by
    intro p idx
    induction idx with
    | nil => intro _ m; simp
    | cons y idx ih =>
      intro hnd m
      obtain ⟨h1, h2⟩ := List.nodup_cons.1 hnd
      rw [List.foldl_cons, ih h2]
      by_cases hxy : x = y
      · subst hxy
        rw [if_neg h1, if_pos List.mem_cons_self]
        split
        · funext j
          unfold Search.zero
          by_cases e1 : j = p.1 <;> by_cases e2 : j = p.2 <;> simp [e1, e2]
        · rfl
      · have e : (if m y p.1 && m y p.2 then Search.zero (Search.zero m y p.1) y p.2 else m) x = m x := by
          split
          · funext j
            unfold Search.zero
            simp [hxy]
          · rfl
        rw [e]
        simp [hxy]
  unfold Search.pruneSame pruneRow
  induction pairs generalizing m with
  | nil => rfl
  | cons p pairs ih =>
    rw [List.foldl_cons, ih, one p idx hnd m, if_pos hx, List.foldl_cons]

/-- Two nodes of two sectors of 90 degrees; three links to the north-east,
north-west and south-west, which leave different sectors, the second one on
another channel than the other two. -/
def orientChannels : Search :=
  { angles := [45, 315, 225], dists := [100, 100, 100], isDist := [true, true, true],
    nodes := 2, perNode := 2, scan := 90,
    channels := some [(⟨"A", 0, 0, .dn⟩, 0), (⟨"A", 0, 1, .dn⟩, 1), (⟨"A", 1, 0, .dn⟩, 0)] }

theorem orientChannels_sensible : Sensible orientChannels := by
  refine ⟨by decide +kernel, by decide +kernel, by decide +kernel, by decide +kernel, by decide +kernel,
    by decide +kernel, by decide +kernel, ?_⟩
  intro w h; cases h

theorem orientChannels_pairs : orientChannels.samePairs = [(0, 1), (1, 2)] ∧ orientChannels.diffPairs = [] := by
  decide +kernel

theorem sectorList_nodup (q : Search) : q.sectorList.Nodup := by
  unfold Search.sectorList
  rw [List.nodup_flatMap]
  refine ⟨?_, ?_⟩
  · intro k _
    refine List.Nodup.map ?_ List.nodup_range
    intro a b h
    exact (Prod.mk.inj h).2
  · refine List.Pairwise.imp ?_ List.nodup_range
    intro a b hab
    simp only [Function.onFun]
    intro x hx hy
    obtain ⟨i, _, rfl⟩ := List.mem_map.1 hx
    obtain ⟨j, _, h⟩ := List.mem_map.1 hy
    exact hab (Prod.mk.inj h).1.symm

theorem mem_sectorList (q : Search) {k i : ℕ} (hk : k < Search.numCandidates) (hi : i < q.perNode) :
    (k, i) ∈ q.sectorList := by
  unfold Search.sectorList
  exact List.mem_flatMap.2 ⟨k, List.mem_range.2 hk, List.mem_map.2 ⟨i, List.mem_range.2 hi, rfl⟩⟩

theorem orientChannels_row : ∀ k < 120, ∀ i < 2, ∀ j < 3,
    pruneRow [(0, 1), (1, 2)] (orientChannels.sectorMat0 (k, i)) j = orientChannels.sectorMat0 (k, i) j := by
  decide +kernel

/-- No sector of the example sees two links: nothing is pruned from the sectors. -/
theorem orientChannels_sector {k i : ℕ} (hk : k < 120) (hi : i < 2) (j : ℕ) (hj : j < 3) :
    orientChannels.sectorMat (k, i) j = orientChannels.sectorMat0 (k, i) j := by
  unfold Search.sectorMat
  rw [orientChannels_pairs.1, orientChannels_pairs.2, Search.pruneDiff_nil,
    pruneSame_row _ (sectorList_nodup _) _ _ _ (mem_sectorList _ hk hi)]
  exact orientChannels_row k hk i hi j hj

/-- The metric of a node of the example. -/
def orientMet (k : ℕ) : ℚ :=
  ((List.range 2).map (fun i => ((List.range 3).map (fun j =>
    if orientChannels.sectorMat0 (k, i) j then
      Search.delta (orientChannels.sectorAzimuth k i) (orientChannels.angle j) ^ 2 else 3000000)).sum)).sum

theorem orientChannels_met {k : ℕ} (hk : k < 120) : orientChannels.nodeMet k = orientMet k := by
  unfold Search.nodeMet orientMet
  have e1 : orientChannels.perNode = 2 := rfl
  have e2 : orientChannels.js = List.range 3 := rfl
  rw [e1, e2]
  refine congrArg List.sum (List.map_congr_left fun i hi =>
    congrArg List.sum (List.map_congr_left fun j hj => ?_))
  have hi' : i < 2 := List.mem_range.1 hi
  have hj' : j < 3 := List.mem_range.1 hj
  unfold Search.weighted
  rw [orientChannels_sector hk hi' j hj']
  split
  · have d : orientChannels.dists.getD j 0 = 100 := by
      interval_cases j <;> rfl
    have m : orientChannels.maxDist = 100 := by decide +kernel
    have w : (if orientChannels.isDist.getD j false then orientChannels.typeWeight else 1) = 1 := by
      have : orientChannels.typeWeight = 1 := rfl
      rw [this]; simp
    rw [d, m, w]
    ring
  · decide +kernel

theorem orientChannels_valid {k : ℕ} : k ∈ orientChannels.validIdx ↔ k < 120 := by
  rw [Search.mem_validIdx]
  constructor
  · exact fun h => h.1
  · intro h
    refine ⟨h, ?_⟩
    unfold Search.valid
    have len : ∀ (p : ℕ → Bool), (orientChannels.js.filter p).length ≤ 3 := by
      intro p
      refine le_trans (List.length_filter_le _ _) ?_
      decide
    simp only [Bool.and_eq_true, List.all_eq_true, decide_eq_true_eq]
    exact ⟨fun i _ => len _, fun i _ => len _⟩

theorem orientChannels_selection (ks : List ℕ) :
    orientChannels.Selection ks ↔ ∃ a, a < 60 ∧ ks = [a, a + 60] := by
  have hw : orientChannels.width = 180 := by decide +kernel
  have hn : orientChannels.numNodes = 2 := by decide +kernel
  constructor
  · rintro ⟨h1, h2, h3⟩
    rw [hn] at h1
    obtain ⟨a, b, rfl⟩ := List.length_eq_two.1 h1
    have hb := orientChannels_valid.1 (h2 b (by simp))
    have := (List.pairwise_cons.1 h3).1 b (by simp)
    rw [hw, Search.center_eq, Search.center_eq] at this
    have e : (b : ℚ) = a + 60 := by linarith [this.1, this.2]
    have e' : b = a + 60 := by exact_mod_cast e
    exact ⟨a, by omega, by rw [e']⟩
  · rintro ⟨a, ha, rfl⟩
    refine ⟨by rw [hn]; rfl, ?_, ?_⟩
    · intro k hk
      simp only [List.mem_cons, List.not_mem_nil, or_false] at hk
      exact orientChannels_valid.2 (by omega)
    · refine List.pairwise_cons.2 ⟨?_, List.pairwise_singleton _ _⟩
      intro b hb
      rw [List.mem_singleton] at hb
      subst hb
      rw [hw, Search.center_eq, Search.center_eq]
      push_cast
      constructor <;> linarith

theorem orientChannels_node {k : ℕ} (hk : k < 120) :
    orientChannels.nodeMat k = pruneRow [(0, 1), (1, 2)] (orientChannels.nodeMat0 k) := by
  unfold Search.nodeMat
  rw [orientChannels_pairs.1, orientChannels_pairs.2, Search.pruneDiff_nil,
    pruneSame_row _ List.nodup_range _ _ _
      (List.mem_range.2 (show k < Search.numCandidates from hk))]

theorem orientChannels_kept : orientChannels.kept [0, 60] = [60] ∧ orientChannels.kept [30, 90] = [30] := by
  have h : ∀ k < 120, (0 < (orientChannels.js.filter (fun j => orientChannels.nodeMat k j)).length) =
      (0 < (orientChannels.js.filter (fun j => pruneRow [(0, 1), (1, 2)] (orientChannels.nodeMat0 k) j)).length) := by
    intro k hk
    rw [orientChannels_node hk]
  unfold Search.kept
  simp only [List.filter_cons, List.filter_nil, h 0 (by decide), h 60 (by decide), h 30 (by decide), h 90 (by decide)]
  decide +kernel

/-- C121 fails for a site with several channels: two nodes pointed north and
south see all three links, and no sector sees two of them, so all rules are
kept. The search returns one of its two nodes only: the other one is dropped as
if it covered nothing, because its two sectors serve different channels. Two of
the three links are seen by no sector. -/
theorem C121_best_violation : Sensible orientChannels ∧
    (∃ s, Pointing (orientChannels.scan * orientChannels.perNode) orientChannels.nodes s ∧
      (∀ c ∈ s, WithinLimits orientChannels c) ∧
      (∀ az ∈ s.flatMap (fun c => nodeSectors c orientChannels.scan orientChannels.perNode),
        (seenBy orientChannels az).length ≤ 1) ∧
      seen orientChannels (s.flatMap (fun c => nodeSectors c orientChannels.scan orientChannels.perNode)) = 3) ∧
    ∃ out, orientChannels.findBest = .ok out ∧ seen orientChannels out.flatten = 1 := by
  refine ⟨orientChannels_sensible, ⟨[0, 180], ⟨rfl, ?_, by decide +kernel⟩, ?_, by decide +kernel,
    by decide +kernel⟩, ?_⟩
  · intro c hc
    simp only [List.mem_cons, List.not_mem_nil, or_false] at hc
    rcases hc with rfl | rfl
    · exact ⟨0, by decide, by norm_num⟩
    · exact ⟨60, by decide, by norm_num⟩
  · intro c _ az _
    exact ⟨fun _ h => (by cases h), fun _ h => (by cases h)⟩
  · have hW : 0 < orientChannels.width := by decide +kernel
    have hn : 0 < orientChannels.numNodes := by decide +kernel
    have s0 : orientChannels.Selection [0, 60] := (orientChannels_selection _).2 ⟨0, by decide, rfl⟩
    have tot : ∀ a, a < 60 → orientChannels.total [a, a + 60] = orientMet a + orientMet (a + 60) := by
      intro a ha
      unfold Search.total
      simp only [List.map_cons, List.map_nil, List.sum_cons, List.sum_nil,
        orientChannels_met (show a < 120 by omega), orientChannels_met (show a + 60 < 120 by omega), add_zero]
    have t0 := tot 0 (by decide)
    have best : ∀ a, a < 60 → orientMet a + orientMet (a + 60) ≤ orientMet 0 + orientMet 60 → a = 0 ∨ a = 30 := by
      decide +kernel
    rcases orientChannels.search_best hW hn with ⟨_, hno⟩ | ⟨l, e, sel, hbest⟩
    · exfalso
      have h1 := hno _ s0
      rw [t0] at h1
      exact absurd h1 (by decide +kernel)
    · obtain ⟨a, ha, hl⟩ := (orientChannels_selection _).1 sel
      have h1 := hbest _ s0
      rw [hl, tot a ha, t0] at h1
      have hfb : orientChannels.findBest = .ok ((orientChannels.kept [a, a + 60]).map
          (fun k => nodeSectors (Search.center k) orientChannels.scan orientChannels.perNode)) := by
        unfold Search.findBest
        rw [if_neg (by decide), if_neg (ne_of_gt hW),
          if_neg (List.ne_nil_of_mem (orientChannels_valid.2 (show 0 < 120 by decide))),
          if_neg (ne_of_gt hn), e]
        dsimp only
        rw [hl, orientChannels.mapM_nodeAzimuths (by decide +kernel)]
        rfl
      refine ⟨_, hfb, ?_⟩
      rcases best a ha h1 with rfl | rfl
      · rw [orientChannels_kept.1]
        decide +kernel
      · rw [orientChannels_kept.2]
        decide +kernel

end Verif
