import Verif.Lemmas.OrientCost
import Mathlib.Tactic.IntervalCases

/-! # C121, C122: the search for the best orientation of the radios -/

namespace Verif
open Spec

namespace Search

variable (q : Search)

theorem mapM_nodeAzimuths (hs : 0 < q.scan) (ks : List ℕ) :
    ks.mapM (fun k => nodeAzimuths (center k) q.perNode q.scan) =
      .ok (ks.map (fun k => nodeSectors (center k) q.scan q.perNode)) := by
  have : (fun k => nodeAzimuths (center k) q.perNode q.scan) =
      fun k => (Except.ok (nodeSectors (center k) q.scan q.perNode) : Except Err _) := by
    funext k; exact nodeAzimuths_eq _ _ _ hs
  rw [this]
  induction ks with
  | nil => rfl
  | cons k ks ih => rw [List.mapM_cons, ih]; rfl

/-- The nodes that the result keeps. -/
def kept (ks : List ℕ) : List ℕ :=
  ks.filter (fun k => decide (0 < (q.js.filter (fun j => q.nodeMat k j)).length))

theorem findBest_ok (hs : 0 < q.scan) {out : List (List ℚ)} (h : q.findBest = .ok out) :
    (q.neighbours = 0 ∧ out = []) ∨ (q.validIdx = [] ∧ out = []) ∨
    (0 < q.neighbours ∧ q.validIdx ≠ [] ∧ 0 < q.numNodes ∧ 0 < q.width ∧
      ∃ l, q.tableau.search (List.range q.tableau.size) q.initialBest none = some l ∧
        out = (q.kept (l.map (fun p => q.validIdx.getD p 0))).map
          (fun k => nodeSectors (center k) q.scan q.perNode)) := by
  unfold findBest at h
  by_cases h0 : q.neighbours = 0
  · rw [if_pos h0] at h
    cases h
    exact Or.inl ⟨h0, rfl⟩
  · rw [if_neg h0] at h
    by_cases hw : q.width = 0
    · rw [if_pos hw] at h; cases h
    · rw [if_neg hw] at h
      by_cases hv : q.validIdx = []
      · rw [if_pos hv] at h
        cases h
        exact Or.inr (Or.inl ⟨hv, rfl⟩)
      · rw [if_neg hv] at h
        by_cases hn : q.numNodes = 0
        · rw [if_pos hn] at h; cases h
        · rw [if_neg hn] at h
          refine Or.inr (Or.inr ⟨Nat.pos_of_ne_zero h0, hv, Nat.pos_of_ne_zero hn, ?_, ?_⟩)
          · have : 0 ≤ q.width := mul_nonneg (le_of_lt hs) (Nat.cast_nonneg _)
            exact lt_of_le_of_ne this (Ne.symm hw)
          · cases hl : q.tableau.search (List.range q.tableau.size) q.initialBest none with
            | none => rw [hl] at h; cases h
            | some l =>
              rw [hl] at h
              dsimp only at h
              rw [q.mapM_nodeAzimuths hs] at h
              cases h
              exact ⟨l, rfl, rfl⟩

theorem width_le (hn : 0 < q.numNodes) (hW : 0 < q.width) : q.width ≤ 360 := by
  unfold numNodes at hn
  have h1 : 0 < ⌊360 / q.width⌋.toNat := lt_of_lt_of_le hn (min_le_left _ _)
  have h2 : 0 < ⌊360 / q.width⌋ := Int.lt_toNat.1 h1
  have h3 : (1 : ℚ) ≤ 360 / q.width := by
    have : (1 : ℤ) ≤ ⌊360 / q.width⌋ := h2
    rw [Int.le_floor] at this
    exact_mod_cast this
  rw [le_div_iff₀ hW] at h3
  linarith

end Search

/-- C121: the radios never overlap. Whatever the rules, limits, channels and
links are: every node in the result points to a multiple of three degrees and
has all its sectors side by side around that bearing, there are no more nodes
than allowed, and any two sectors of the result, of one node or of two, are at
least a sector's width apart. -/
theorem C121_apart (q : Search) (hs : 0 < q.scan) (out : List (List ℚ)) (h : q.findBest = .ok out) :
    out.length ≤ q.nodes ∧
    (∀ node ∈ out, ∃ k : ℕ, k < 120 ∧ node = nodeSectors (3 * k) q.scan q.perNode) ∧
    (∀ az ∈ out.flatten, 0 ≤ az ∧ az < 360) ∧
    out.flatten.Pairwise (fun a b => q.scan ≤ bearingGap a b) := by
  rcases q.findBest_ok hs h with ⟨_, rfl⟩ | ⟨_, rfl⟩ | ⟨hN, hv, hn, hW, l, hl, rfl⟩
  · simp
  · simp
  · rcases q.search_best hW hn with ⟨e, _⟩ | ⟨l', e, sel, _⟩
    · rw [e] at hl; cases hl
    · rw [e] at hl
      cases hl
      generalize l.map (fun p => q.validIdx.getD p 0) = ks at *
      have sub : (q.kept ks).Sublist ks := List.filter_sublist
      refine ⟨?_, ?_, ?_, ?_⟩
      · rw [List.length_map]
        refine le_trans sub.length_le ?_
        rw [sel.len]
        exact min_le_right _ _
      · intro node hnode
        obtain ⟨k, hk, rfl⟩ := List.mem_map.1 hnode
        exact ⟨k, (q.mem_validIdx.1 (sel.mem k (sub.subset hk))).1, by rw [Search.center_eq]⟩
      · intro az haz
        obtain ⟨node, h1, h2⟩ := List.mem_flatten.1 haz
        obtain ⟨k, hk, rfl⟩ := List.mem_map.1 h1
        exact isBearing_sector h2
      · have hg : ((q.kept ks).map Search.center).Pairwise
            (fun a b => q.scan * q.perNode ≤ b - a ∧ q.scan * q.perNode ≤ 360 - (b - a)) := by
          rw [List.pairwise_map]
          exact (sel.gaps).sublist sub
        have := all_apart hs (q.width_le hn hW) hg
        rw [List.flatMap_def, List.map_map] at this
        exact this

namespace Search

variable (q : Search)

theorem numNodes_eq (hq : Sensible q) : q.numNodes = q.nodes := by
  unfold numNodes
  apply min_eq_right
  have hW : 0 < q.width := mul_pos hq.scan_pos (by exact_mod_cast hq.per_pos)
  have : (q.nodes : ℤ) ≤ ⌊360 / q.width⌋ := by
    rw [Int.le_floor, le_div_iff₀ hW]
    have := hq.turn
    unfold width
    push_cast
    linarith
  omega

theorem width_pos (hq : Sensible q) : 0 < q.width :=
  mul_pos hq.scan_pos (by exact_mod_cast hq.per_pos)

theorem width_le' (hq : Sensible q) : q.width ≤ 360 :=
  q.width_le (by rw [q.numNodes_eq hq]; exact hq.nodes_pos) (q.width_pos hq)

/-- Selections of candidates are pointings within the limits. -/
theorem selection_pointing (hq : Sensible q) (hp : NoPairRule q) (ks : List ℕ) (h : q.Selection ks) :
    Pointing (q.scan * q.perNode) q.nodes (ks.map center) ∧ ∀ c ∈ ks.map center, WithinLimits q c := by
  refine ⟨⟨?_, ?_, ?_⟩, ?_⟩
  · rw [List.length_map, h.len, q.numNodes_eq hq]
  · intro c hc
    obtain ⟨k, hk, rfl⟩ := List.mem_map.1 hc
    exact ⟨k, (q.mem_validIdx.1 (h.mem k hk)).1, center_eq k⟩
  · rw [List.pairwise_map]
    exact h.gaps
  · intro c hc
    obtain ⟨k, hk, rfl⟩ := List.mem_map.1 hc
    exact (q.valid_iff hq hp k).1 (q.mem_validIdx.1 (h.mem k hk)).2

theorem pointing_selection (hq : Sensible q) (hp : NoPairRule q) (s : List ℚ)
    (h : Pointing (q.scan * q.perNode) q.nodes s) (hw : ∀ c ∈ s, WithinLimits q c) :
    ∃ ks, s = ks.map center ∧ q.Selection ks := by
  have : ∃ ks : List ℕ, s = ks.map center ∧ ∀ k ∈ ks, k < 120 := by
    have hg := h.grid
    clear h hw
    induction s with
    | nil => exact ⟨[], rfl, by simp⟩
    | cons c s ih =>
      obtain ⟨ks, e, hk⟩ := ih (fun c hc => hg c (List.mem_cons_of_mem _ hc))
      obtain ⟨k, h1, h2⟩ := hg c List.mem_cons_self
      refine ⟨k :: ks, by rw [List.map_cons, ← e, center_eq, h2], ?_⟩
      intro x hx
      rcases List.mem_cons.1 hx with rfl | hx
      · exact h1
      · exact hk x hx
  obtain ⟨ks, rfl, hk⟩ := this
  refine ⟨ks, rfl, ?_, ?_, ?_⟩
  · rw [q.numNodes_eq hq, ← h.count, List.length_map]
  · intro k hkk
    exact q.mem_validIdx.2 ⟨hk k hkk, (q.valid_iff hq hp k).2 (hw _ (List.mem_map_of_mem hkk))⟩
  · have := h.gaps
    rw [List.pairwise_map] at this
    exact this

theorem sectorsOf_apart (hq : Sensible q) (ks : List ℕ) (h : q.Selection ks) :
    (∀ a ∈ q.sectorsOf ks, IsBearing a) ∧
      (q.sectorsOf ks).Pairwise (fun a b => q.scan ≤ bearingGap a b) := by
  refine ⟨?_, ?_⟩
  · intro a ha
    obtain ⟨k, _, h2⟩ := List.mem_flatMap.1 ha
    exact isBearing_sector h2
  · have hg : (ks.map Search.center).Pairwise
        (fun a b => q.scan * q.perNode ≤ b - a ∧ q.scan * q.perNode ≤ 360 - (b - a)) := by
      rw [List.pairwise_map]
      exact h.gaps
    have := all_apart hq.scan_pos (q.width_le' hq) hg
    rw [List.flatMap_map] at this
    exact this

theorem sectorsOf_length (ks : List ℕ) : (q.sectorsOf ks).length = ks.length * q.perNode := by
  unfold sectorsOf
  induction ks with
  | nil => simp
  | cons k ks ih =>
    rw [List.flatMap_cons, List.length_append, ih]
    simp [nodeSectors]; ring

theorem total_metric (hq : Sensible q) (hp : NoPairRule q) (hN : 0 < q.neighbours) (ks : List ℕ)
    (h : q.Selection ks) :
    q.total ks = q.penalty * (q.nodes * q.perNode * q.neighbours : ℕ) - q.penalty * seen q (q.sectorsOf ks) +
      spread q (q.sectorsOf ks) / q.maxDist ∧
    0 ≤ spread q (q.sectorsOf ks) / q.maxDist ∧ spread q (q.sectorsOf ks) / q.maxDist < q.penalty := by
  obtain ⟨h1, h2⟩ := q.sectorsOf_apart hq ks h
  obtain ⟨m1, m2, m3⟩ := q.metric hq hN _ h1 h2
  refine ⟨?_, m2, m3⟩
  rw [q.total_eq hq hp, m1, q.sectorsOf_length, h.len, q.numNodes_eq hq]
  push_cast
  ring

theorem total_lt (hq : Sensible q) (hp : NoPairRule q) (hN : 0 < q.neighbours) (ks : List ℕ)
    (h : q.Selection ks) : q.total ks < q.initialBest := by
  obtain ⟨e, _, m3⟩ := q.total_metric hq hp hN ks h
  have hP : 1 ≤ q.penalty := by
    unfold penalty
    have : (1 : ℚ) ≤ q.neighbours := by exact_mod_cast hN
    linarith
  unfold initialBest
  rw [q.numNodes_eq hq, e]
  have hs : (0 : ℚ) ≤ seen q (q.sectorsOf ks) := Nat.cast_nonneg _
  have hx : (0 : ℚ) ≤ ((q.nodes * q.perNode * q.neighbours : ℕ) : ℚ) := Nat.cast_nonneg _
  generalize ((q.nodes * q.perNode * q.neighbours : ℕ) : ℚ) = x at *
  generalize q.penalty = P at *
  have : P ≤ P ^ 2 := by nlinarith
  nlinarith

/-- A smaller metric means: more links seen or, for as many, a smaller spread. -/
theorem total_le (hq : Sensible q) (hp : NoPairRule q) (hN : 0 < q.neighbours) (ks ks' : List ℕ)
    (h : q.Selection ks) (h' : q.Selection ks') (hle : q.total ks ≤ q.total ks') :
    seen q (q.sectorsOf ks') ≤ seen q (q.sectorsOf ks) ∧
    (seen q (q.sectorsOf ks') = seen q (q.sectorsOf ks) →
      spread q (q.sectorsOf ks) ≤ spread q (q.sectorsOf ks')) := by
  obtain ⟨e, a1, a2⟩ := q.total_metric hq hp hN ks h
  obtain ⟨e', b1, b2⟩ := q.total_metric hq hp hN ks' h'
  rw [e, e'] at hle
  have m0 := (q.maxDist_spec hq hN).1
  refine ⟨?_, ?_⟩
  · by_contra hcon
    have : (seen q (q.sectorsOf ks) : ℚ) + 1 ≤ seen q (q.sectorsOf ks') := by
      exact_mod_cast not_le.1 hcon
    have hP : 0 < q.penalty := by
      unfold penalty
      have : (1 : ℚ) ≤ q.neighbours := by exact_mod_cast hN
      linarith
    nlinarith
  · intro hs
    rw [hs] at hle
    have : spread q (q.sectorsOf ks) / q.maxDist ≤ spread q (q.sectorsOf ks') / q.maxDist := by linarith
    exact (div_le_div_iff_of_pos_right m0).1 this

/-- The nodes that see nothing make no difference. -/
theorem kept_same (hq : Sensible q) (hp : NoPairRule q) (ks : List ℕ) (h : ∀ k ∈ ks, k < numCandidates) :
    seen q (q.sectorsOf (q.kept ks)) = seen q (q.sectorsOf ks) ∧
    spread q (q.sectorsOf (q.kept ks)) = spread q (q.sectorsOf ks) := by
  -- the sectors of a node that is dropped see nothing
  have drop : ∀ k ∈ ks, k ∉ q.kept ks → ∀ az ∈ nodeSectors (center k) q.scan q.perNode,
      ∀ j ∈ List.range q.angles.length, ¬ Sees q az j := by
    intro k hk hnk az haz j hj hs
    apply hnk
    unfold kept
    rw [List.mem_filter]
    refine ⟨hk, decide_eq_true (List.length_pos_of_mem (a := j) ?_)⟩
    rw [List.mem_filter]
    refine ⟨hj, ?_⟩
    rw [q.nodeMat_iff hq hp (h k hk)]
    exact decide_eq_true (node_sees hq.scan_pos (center_bearing (h k hk)) (q.angle_bearing hq j) haz hs)
  refine ⟨?_, ?_⟩
  · unfold seen
    congr 1
    apply List.filter_congr
    intro j hj
    have : (∃ az ∈ q.sectorsOf (q.kept ks), Sees q az j) ↔ ∃ az ∈ q.sectorsOf ks, Sees q az j := by
      constructor
      · rintro ⟨az, ha, hs⟩
        obtain ⟨k, h1, h2⟩ := List.mem_flatMap.1 ha
        exact ⟨az, List.mem_flatMap.2 ⟨k, (List.mem_filter.1 h1).1, h2⟩, hs⟩
      · rintro ⟨az, ha, hs⟩
        obtain ⟨k, h1, h2⟩ := List.mem_flatMap.1 ha
        by_cases hk : k ∈ q.kept ks
        · exact ⟨az, List.mem_flatMap.2 ⟨k, hk, h2⟩, hs⟩
        · exact absurd hs (drop k h1 hk az h2 j hj)
    simp only [this]
  · have zero : ∀ k ∈ ks, k ∉ q.kept ks → spread q (nodeSectors (center k) q.scan q.perNode) = 0 := by
      intro k hk hnk
      unfold spread
      apply List.sum_eq_zero
      intro x hx
      obtain ⟨az, haz, rfl⟩ := List.mem_map.1 hx
      have : seenBy q az = [] := by
        unfold seenBy
        rw [List.filter_eq_nil_iff]
        intro j hj
        simpa using drop k hk hnk az haz j hj
      rw [this]; simp
    have app : ∀ a b, spread q (a ++ b) = spread q a + spread q b := by
      intro a b; unfold spread; simp
    have : ∀ ks' : List ℕ, (∀ k ∈ ks', k ∈ ks) →
        spread q (q.sectorsOf (q.kept ks')) = spread q (q.sectorsOf ks') := by
      intro ks'
      induction ks' with
      | nil => intro _; rfl
      | cons k ks' ih =>
        intro hm
        have i := ih (fun k hk => hm k (List.mem_cons_of_mem _ hk))
        have e : q.sectorsOf (k :: ks') = nodeSectors (center k) q.scan q.perNode ++ q.sectorsOf ks' := by
          simp [sectorsOf]
        rw [e, app, ← i]
        unfold kept
        rw [List.filter_cons]
        split
        · have e : ∀ l, q.sectorsOf (k :: l) = nodeSectors (center k) q.scan q.perNode ++ q.sectorsOf l := by
            intro l; simp [sectorsOf]
          rw [e, app]
        · rename_i hnk
          rw [zero k (hm k List.mem_cons_self)]
          · simp
          · unfold kept
            rw [List.mem_filter]
            rintro ⟨_, hx⟩
            exact hnk hx
    exact this ks (fun k hk => hk)

end Search

/-- C121: when no rule about pairs of links applies (one channel, no angle
limits) the search returns the best orientation: of all ways to point the nodes
of the site without overlap and within the limits, the result sees the most
links and, among those that see as many, has the least spread. The result is
such a pointing without the nodes that have no link in their range.
Missing: the searches with pair rules, for which it is false (`C121_best_violation`). -/
theorem C121_best_partial (q : Search) (hq : Sensible q) (hp : NoPairRule q) (hN : q.angles ≠ [])
    (hc : ∃ k : ℕ, k < 120 ∧ WithinLimits q (3 * k)) (out : List (List ℚ)) (h : q.findBest = .ok out) :
    ∃ s, Pointing (q.scan * q.perNode) q.nodes s ∧ (∀ c ∈ s, WithinLimits q c) ∧
      out = (s.filter (fun c => decide (∃ a ∈ q.angles, bearingGap c a < q.scan * q.perNode / 2))).map
        (fun c => nodeSectors c q.scan q.perNode) ∧
      ∀ s', Pointing (q.scan * q.perNode) q.nodes s' → (∀ c ∈ s', WithinLimits q c) →
        seen q (s'.flatMap (fun c => nodeSectors c q.scan q.perNode)) ≤ seen q out.flatten ∧
        (seen q (s'.flatMap (fun c => nodeSectors c q.scan q.perNode)) = seen q out.flatten →
          spread q out.flatten ≤ spread q (s'.flatMap (fun c => nodeSectors c q.scan q.perNode))) := by
  have hN' : 0 < q.neighbours := List.length_pos_of_ne_nil hN
  obtain ⟨k0, hk0, hl0⟩ := hc
  have hv : q.validIdx ≠ [] := by
    apply List.ne_nil_of_mem (a := k0)
    exact q.mem_validIdx.2 ⟨hk0, (q.valid_iff hq hp k0).2 (by rw [Search.center_eq]; exact hl0)⟩
  rcases q.findBest_ok hq.scan_pos h with ⟨h0, _⟩ | ⟨h0, _⟩ | ⟨_, _, hn, hW, l, hl, rfl⟩
  · omega
  · exact absurd h0 hv
  · rcases q.search_best hW hn with ⟨e, _⟩ | ⟨l', e, sel, hbest⟩
    · rw [e] at hl; cases hl
    · rw [e] at hl
      cases hl
      generalize l.map (fun p => q.validIdx.getD p 0) = ks at *
      obtain ⟨p1, p2⟩ := q.selection_pointing hq hp ks sel
      have hks : ∀ k ∈ ks, k < Search.numCandidates := fun k hk => (q.mem_validIdx.1 (sel.mem k hk)).1
      obtain ⟨e1, e2⟩ := q.kept_same hq hp ks hks
      have flat : ((q.kept ks).map (fun k => nodeSectors (Search.center k) q.scan q.perNode)).flatten =
          q.sectorsOf (q.kept ks) := by
        unfold Search.sectorsOf; rw [List.flatMap_def]
      refine ⟨ks.map Search.center, p1, p2, ?_, ?_⟩
      · rw [List.filter_map, List.map_map]
        have : q.kept ks = ks.filter ((fun c => decide (∃ a ∈ q.angles,
            bearingGap c a < q.scan * q.perNode / 2)) ∘ Search.center) := by
          unfold Search.kept
          apply List.filter_congr
          intro k hk
          simp only [Function.comp]
          rw [decide_eq_decide, List.length_pos_iff_exists_mem]
          constructor
          · rintro ⟨j, hj⟩
            rw [List.mem_filter, q.nodeMat_iff hq hp (hks k hk)] at hj
            have hj1 : j < q.angles.length := List.mem_range.1 hj.1
            have hj2 := of_decide_eq_true hj.2
            rw [List.getD_eq_getElem _ _ hj1] at hj2
            exact ⟨_, List.getElem_mem _, hj2⟩
          · rintro ⟨a, ha, hg⟩
            obtain ⟨j, hj, rfl⟩ := List.mem_iff_getElem.1 ha
            refine ⟨j, ?_⟩
            rw [List.mem_filter, q.nodeMat_iff hq hp (hks k hk)]
            refine ⟨List.mem_range.2 hj, decide_eq_true ?_⟩
            rw [List.getD_eq_getElem _ _ hj]
            exact hg
        rw [this]
        rfl
      · intro s' hs' hw'
        obtain ⟨ks', rfl, sel'⟩ := q.pointing_selection hq hp s' hs' hw'
        have := q.total_le hq hp hN' ks ks' sel sel' (hbest ks' sel')
        rw [flat, e1, e2, List.flatMap_map]
        exact this

/-- C121: without a neighbour, or when every candidate breaks the limits, there
are no sectors. -/
theorem C121_none (q : Search) (hq : Sensible q) (hp : NoPairRule q)
    (h : q.angles = [] ∨ ∀ k : ℕ, k < 120 → ¬ WithinLimits q (3 * k)) : q.findBest = .ok [] := by
  unfold Search.findBest
  rcases h with h | h
  · rw [if_pos (by simp [Search.neighbours, h])]
  · by_cases h0 : q.neighbours = 0
    · rw [if_pos h0]
    · rw [if_neg h0, if_neg (ne_of_gt (q.width_pos hq)), if_pos]
      rw [List.eq_nil_iff_forall_not_mem]
      intro k hk
      obtain ⟨h1, h2⟩ := q.mem_validIdx.1 hk
      have := (q.valid_iff hq hp k).1 h2
      rw [Search.center_eq] at this
      exact h k h1 this

/-- C121: the search fails exactly when some node may be pointed within the
limits but not as many as the device has. -/
theorem C121_fails (q : Search) (hq : Sensible q) (hp : NoPairRule q) (e : Err) :
    q.findBest = .error e ↔ e = .optimizer ∧ q.angles ≠ [] ∧
      (∃ k : ℕ, k < 120 ∧ WithinLimits q (3 * k)) ∧
      ¬ ∃ s, Pointing (q.scan * q.perNode) q.nodes s ∧ ∀ c ∈ s, WithinLimits q c := by
  have hW := q.width_pos hq
  have hn : 0 < q.numNodes := by rw [q.numNodes_eq hq]; exact hq.nodes_pos
  have hv : (∃ k : ℕ, k < 120 ∧ WithinLimits q (3 * k)) ↔ q.validIdx ≠ [] := by
    rw [ne_eq, List.eq_nil_iff_forall_not_mem, not_forall_not]
    constructor
    · rintro ⟨k, h1, h2⟩
      exact ⟨k, q.mem_validIdx.2 ⟨h1, (q.valid_iff hq hp k).2 (by rw [Search.center_eq]; exact h2)⟩⟩
    · rintro ⟨k, hk⟩
      obtain ⟨h1, h2⟩ := q.mem_validIdx.1 hk
      have := (q.valid_iff hq hp k).1 h2
      rw [Search.center_eq] at this
      exact ⟨k, h1, this⟩
  have hN : q.angles ≠ [] ↔ ¬ q.neighbours = 0 := by
    unfold Search.neighbours; simp
  rw [hv, hN]
  unfold Search.findBest
  by_cases h0 : q.neighbours = 0
  · rw [if_pos h0]; simp [h0]
  · rw [if_neg h0, if_neg (ne_of_gt hW)]
    by_cases h1 : q.validIdx = []
    · rw [if_pos h1]; simp [h1]
    · rw [if_neg h1, if_neg (ne_of_gt hn)]
      rcases q.search_best hW hn with ⟨e', hno⟩ | ⟨l, e', sel, _⟩
      · rw [e']
        constructor
        · intro h
          cases h
          refine ⟨rfl, h0, h1, ?_⟩
          rintro ⟨s, hs, hw⟩
          obtain ⟨ks, rfl, sel⟩ := q.pointing_selection hq hp s hs hw
          have := q.total_lt hq hp (Nat.pos_of_ne_zero h0) ks sel
          exact absurd (hno ks sel) (not_le.2 this)
        · rintro ⟨rfl, _⟩
          rfl
      · rw [e']
        dsimp only
        rw [q.mapM_nodeAzimuths hq.scan_pos]
        constructor
        · intro h; cases h
        · rintro ⟨_, _, _, hno⟩
          exact absurd ⟨_, q.selection_pointing hq hp _ sel⟩ hno

end Verif
