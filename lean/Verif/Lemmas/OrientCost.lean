import Verif.Lemmas.OrientMetric
import Mathlib.Algebra.Order.BigOperators.Group.List

/-! # The metric without pair rules: seen links first, then the spread -/

namespace Verif
open Spec

namespace Search

variable (q : Search)

/-! ## No rule applies: nothing is pruned -/

theorem pruneSame_nil {ι : Type} [DecidableEq ι] (idx : List ι) (m : ι → ℕ → Bool) :
    pruneSame idx [] m = m := rfl

theorem pruneDiff_nil {ι : Type} [DecidableEq ι] (idx : List ι) (m : ι → ℕ → Bool) :
    pruneDiff idx [] m = m := rfl

theorem pairs_nil (h : NoPairRule q) : q.samePairs = [] ∧ q.diffPairs = [] := by
  obtain ⟨h1, h2, h3⟩ := h
  unfold samePairs diffPairs anglePairs
  rw [h1, h2]
  refine ⟨rfl, ?_⟩
  dsimp only
  rcases h3 with h3 | h3 <;> simp [h3]

theorem angle_bearing (hq : Sensible q) (j : ℕ) : IsBearing (q.angles.getD j 0) := by
  by_cases h : j < q.angles.length
  · rw [List.getD_eq_getElem _ _ h]
    exact hq.angle _ (List.getElem_mem _)
  · rw [List.getD_eq_default _ _ (not_lt.1 h)]
    exact ⟨le_refl _, by norm_num⟩

theorem sectorAzimuth_eq (hs : 0 < q.scan) {k i : ℕ} (hi : i < q.perNode) :
    q.sectorAzimuth k i = sectorAt (center k) q.scan q.perNode i := by
  unfold sectorAzimuth
  rw [nodeAzimuths_eq _ _ _ hs]
  dsimp only
  unfold nodeSectors
  rw [List.getD_eq_getElem _ _ (by simpa using hi)]
  simp

theorem sectorMat0_iff (hq : Sensible q) {k i : ℕ} (hi : i < q.perNode) (j : ℕ) :
    q.sectorMat0 (k, i) j = decide (Sees q (sectorAt (center k) q.scan q.perNode i) j) := by
  unfold sectorMat0 Sees angle
  dsimp only
  rw [q.sectorAzimuth_eq hq.scan_pos hi, delta_eq]
  have hn : 0 ≤ bearingGap (sectorAt (center k) q.scan q.perNode i) (q.angles.getD j 0) :=
    bearingGap_nonneg (isBearing_mod360 _) (q.angle_bearing hq j)
  have := hq.scan_pos
  rw [decide_eq_true (p := -q.scan / 2 ≤ _) (by linarith)]
  simp

theorem nodeMat0_iff (hq : Sensible q) {k : ℕ} (hk : k < numCandidates) (j : ℕ) :
    q.nodeMat0 k j = decide (bearingGap (center k) (q.angles.getD j 0) < q.scan * q.perNode / 2) := by
  unfold nodeMat0 angle
  dsimp only
  rw [delta_eq]
  have hn : 0 ≤ bearingGap (center k) (q.angles.getD j 0) :=
    bearingGap_nonneg (center_bearing hk) (q.angle_bearing hq j)
  have h1 : 0 ≤ q.scan * q.perNode := mul_nonneg (le_of_lt hq.scan_pos) (Nat.cast_nonneg _)
  rw [decide_eq_true (p := -q.scan * q.perNode / 2 ≤ _) (by linarith)]
  simp

theorem sectorMat_iff (hq : Sensible q) (hp : NoPairRule q) {k i : ℕ} (hi : i < q.perNode) (j : ℕ) :
    q.sectorMat (k, i) j = decide (Sees q (sectorAt (center k) q.scan q.perNode i) j) := by
  obtain ⟨h1, h2⟩ := q.pairs_nil hp
  unfold sectorMat
  rw [h1, h2, pruneDiff_nil, pruneSame_nil]
  exact q.sectorMat0_iff hq hi j

theorem nodeMat_iff (hq : Sensible q) (hp : NoPairRule q) {k : ℕ} (hk : k < numCandidates) (j : ℕ) :
    q.nodeMat k j = decide (bearingGap (center k) (q.angles.getD j 0) < q.scan * q.perNode / 2) := by
  obtain ⟨h1, h2⟩ := q.pairs_nil hp
  unfold nodeMat
  rw [h1, h2, pruneDiff_nil, pruneSame_nil]
  exact q.nodeMat0_iff hq hk j

theorem valid_iff (hq : Sensible q) (hp : NoPairRule q) (k : ℕ) :
    q.valid k = true ↔ WithinLimits q (center k) := by
  unfold valid WithinLimits nodeSectors
  have len : ∀ (p : ℕ → Bool), ((q.js).filter p).length ≤ q.neighbours := by
    intro p
    refine le_trans (List.length_filter_le _ _) ?_
    simp [js]
  have e1 : ∀ i, i < q.perNode → (q.js.filter (fun j => q.sectorMat (k, i) j)) =
      seenBy q (sectorAt (center k) q.scan q.perNode i) := by
    intro i hi
    unfold js seenBy neighbours
    apply List.filter_congr
    intro j _
    exact q.sectorMat_iff hq hp hi j
  have e2 : ∀ i, i < q.perNode → (q.js.filter (fun j => q.sectorMat (k, i) j && q.isDist.getD j false)) =
      (seenBy q (sectorAt (center k) q.scan q.perNode i)).filter (fun j => q.isDist.getD j false) := by
    intro i hi
    unfold js seenBy neighbours
    rw [List.filter_filter]
    apply List.filter_congr
    intro j _
    rw [q.sectorMat_iff hq hp hi j, Bool.and_comm]
  simp only [Bool.and_eq_true, List.all_eq_true, List.mem_range, decide_eq_true_eq, List.mem_map,
    forall_exists_index, and_imp, forall_apply_eq_imp_iff₂]
  constructor
  · rintro ⟨h1, h2⟩ i hi
    refine ⟨?_, ?_⟩
    · intro lim hl
      have := h1 i hi
      rw [e1 i hi, hl] at this
      exact this
    · intro lim hl
      have := h2 i hi
      rw [e2 i hi, hl] at this
      exact this
  · intro h
    refine ⟨?_, ?_⟩
    · intro i hi
      cases hl : q.totalLimit with
      | none => exact len _
      | some lim => rw [e1 i hi]; exact (h i hi).1 lim hl
    · intro i hi
      cases hl : q.dnLimit with
      | none => exact len _
      | some lim => rw [e2 i hi]; exact (h i hi).2 lim hl

/-! ## The longest link -/

theorem foldl_max_le (l : List ℚ) (a : ℚ) : a ≤ l.foldl max a ∧ ∀ x ∈ l, x ≤ l.foldl max a := by
  induction l generalizing a with
  | nil => exact ⟨le_refl _, by simp⟩
  | cons y l ih =>
    obtain ⟨h1, h2⟩ := ih (max a y)
    rw [List.foldl_cons]
    refine ⟨le_trans (le_max_left _ _) h1, ?_⟩
    intro x hx
    rcases List.mem_cons.1 hx with rfl | hx
    · exact le_trans (le_max_right _ _) h1
    · exact h2 x hx

theorem maxDist_spec (hq : Sensible q) (hN : 0 < q.neighbours) :
    0 < q.maxDist ∧ ∀ j, 0 ≤ q.dists.getD j 0 ∧ q.dists.getD j 0 ≤ q.maxDist := by
  have hl : 0 < q.dists.length := by rw [hq.lens]; exact hN
  have h1 : ∀ x ∈ q.dists, x ≤ q.maxDist := (foldl_max_le q.dists (q.dists.headD 0)).2
  have h0 : 0 < q.maxDist := by
    have hm := List.getElem_mem hl
    exact lt_of_lt_of_le (hq.dist _ hm) (h1 _ hm)
  refine ⟨h0, ?_⟩
  intro j
  by_cases h : j < q.dists.length
  · rw [List.getD_eq_getElem _ _ h]
    have hm := List.getElem_mem h
    exact ⟨le_of_lt (hq.dist _ hm), h1 _ hm⟩
  · rw [List.getD_eq_default _ _ (not_lt.1 h)]
    exact ⟨le_refl _, le_of_lt h0⟩

/-! ## The metric of a list of sectors -/

/-- The contribution of a sector and a link it sees. -/
def dev (az : ℚ) (j : ℕ) : ℚ :=
  bearingGap az (q.angles.getD j 0) ^ 2 * q.dists.getD j 0 *
    (if q.isDist.getD j false then q.typeWeight else 1)

/-- The entry of the metric for one sector and one link. -/
def entry (az : ℚ) (j : ℕ) : ℚ := if Sees q az j then q.dev az j / q.maxDist else q.penalty

theorem dev_bounds (hq : Sensible q) (hN : 0 < q.neighbours) {az : ℚ} (ha : IsBearing az) (j : ℕ) :
    0 ≤ q.dev az j / q.maxDist ∧ q.dev az j / q.maxDist ≤ 972000 := by
  obtain ⟨m0, hm⟩ := q.maxDist_spec hq hN
  obtain ⟨d0, d1⟩ := hm j
  have g0 := bearingGap_nonneg ha (q.angle_bearing hq j)
  have g1 := bearingGap_le az (q.angles.getD j 0)
  have w : 0 ≤ (if q.isDist.getD j false then q.typeWeight else (1 : ℚ)) ∧
      (if q.isDist.getD j false then q.typeWeight else (1 : ℚ)) ≤ 30 := by
    split
    · unfold typeWeight
      cases hw : q.weight with
      | none => norm_num
      | some w =>
        dsimp only
        split
        · norm_num
        · exact hq.weight w hw
    · norm_num
  unfold dev
  generalize (if q.isDist.getD j false then q.typeWeight else (1 : ℚ)) = t at *
  generalize bearingGap az (q.angles.getD j 0) = g at *
  generalize q.dists.getD j 0 = d at *
  have gg : g ^ 2 ≤ 32400 := by nlinarith
  have gg0 : 0 ≤ g ^ 2 := sq_nonneg g
  have hgt : 0 ≤ g ^ 2 * t := mul_nonneg gg0 w.1
  have hgt1 : g ^ 2 * t ≤ 972000 := by nlinarith
  refine ⟨div_nonneg (mul_nonneg (mul_nonneg gg0 d0) w.1) (le_of_lt m0), ?_⟩
  rw [div_le_iff₀ m0]
  calc g ^ 2 * d * t = (g ^ 2 * t) * d := by ring
    _ ≤ 972000 * q.maxDist := mul_le_mul hgt1 d1 d0 (by norm_num)

theorem weighted_eq (hq : Sensible q) (hp : NoPairRule q) {k i : ℕ} (hi : i < q.perNode) (j : ℕ) :
    q.weighted k i j = q.entry (sectorAt (center k) q.scan q.perNode i) j := by
  unfold weighted entry dev angle
  rw [q.sectorMat_iff hq hp hi j, q.sectorAzimuth_eq hq.scan_pos hi, delta_eq]
  simp only [decide_eq_true_eq]
  split
  · ring
  · rfl

/-- The sectors of a selection. -/
def sectorsOf (ks : List ℕ) : List ℚ := ks.flatMap (fun k => nodeSectors (center k) q.scan q.perNode)

theorem total_eq (hq : Sensible q) (hp : NoPairRule q) (ks : List ℕ) :
    q.total ks = ((q.sectorsOf ks).map (fun az => (q.js.map (q.entry az)).sum)).sum := by
  unfold total sectorsOf
  induction ks with
  | nil => rfl
  | cons k ks ih =>
    rw [List.map_cons, List.sum_cons, ih, List.flatMap_cons, List.map_append, List.sum_append]
    congr 1
    unfold nodeMet nodeSectors
    rw [List.map_map]
    congr 1
    apply List.map_congr_left
    intro i hi
    simp only [Function.comp]
    congr 1
    apply List.map_congr_left
    intro j _
    exact q.weighted_eq hq hp (List.mem_range.1 hi) j

theorem sum_comm_list {α β : Type} (f : α → β → ℚ) (as : List α) (bs : List β) :
    (as.map (fun a => (bs.map (f a)).sum)).sum = (bs.map (fun b => (as.map (fun a => f a b)).sum)).sum := by
  induction as with
  | nil => simp
  | cons a as ih =>
    rw [List.map_cons, List.sum_cons, ih]
    simp only [List.map_cons, List.sum_cons]
    rw [List.sum_map_add]

/-- One link and sectors that do not overlap: at most one sector sees it. -/
theorem column (hq : Sensible q) (hN : 0 < q.neighbours) (j : ℕ) (azs : List ℚ) (hb : ∀ a ∈ azs, IsBearing a)
    (ha : azs.Pairwise (fun a b => q.scan ≤ bearingGap a b)) :
    (azs.map (fun az => q.entry az j)).sum =
      q.penalty * azs.length - (if ∃ az ∈ azs, Sees q az j then q.penalty else 0) +
        (azs.map (fun az => if Sees q az j then q.dev az j / q.maxDist else 0)).sum ∧
    0 ≤ (azs.map (fun az => if Sees q az j then q.dev az j / q.maxDist else 0)).sum ∧
    (azs.map (fun az => if Sees q az j then q.dev az j / q.maxDist else 0)).sum ≤ 972000 ∧
    ((¬ ∃ az ∈ azs, Sees q az j) →
      (azs.map (fun az => if Sees q az j then q.dev az j / q.maxDist else 0)).sum = 0) := by
  induction azs with
  | nil => simp
  | cons a azs ih =>
    obtain ⟨p1, p2⟩ := List.pairwise_cons.1 ha
    obtain ⟨i1, i2, i3, i4⟩ := ih (fun a h => hb a (List.mem_cons_of_mem _ h)) p2
    have ba := hb a List.mem_cons_self
    simp only [List.map_cons, List.sum_cons, List.length_cons, Nat.cast_add, Nat.cast_one]
    by_cases hs : Sees q a j
    · have none : ¬ ∃ az ∈ azs, Sees q az j := by
        rintro ⟨b, hbm, hsb⟩
        have h1 := p1 b hbm
        have bb := hb b (List.mem_cons_of_mem _ hbm)
        have ht := bearingGap_triangle ba (q.angle_bearing hq j) bb
        unfold Sees at hs hsb
        rw [bearingGap_comm b] at hsb
        linarith
      have hz := i4 none
      rw [if_neg none] at i1
      have db := q.dev_bounds hq hN ba j
      rw [if_pos hs, if_pos ⟨a, List.mem_cons_self, hs⟩, i1, hz]
      refine ⟨?_, by linarith [db.1], by linarith [db.2], ?_⟩
      · unfold entry
        rw [if_pos hs]
        ring
      · intro h
        exact absurd ⟨a, List.mem_cons_self, hs⟩ h
    · have iff : (∃ az ∈ a :: azs, Sees q az j) ↔ ∃ az ∈ azs, Sees q az j := by
        constructor
        · rintro ⟨b, hbm, h⟩
          rcases List.mem_cons.1 hbm with rfl | hbm
          · exact absurd h hs
          · exact ⟨b, hbm, h⟩
        · rintro ⟨b, hbm, h⟩
          exact ⟨b, List.mem_cons_of_mem _ hbm, h⟩
      rw [if_neg hs]
      refine ⟨?_, by linarith, by linarith, ?_⟩
      · unfold entry at i1 ⊢
        rw [if_neg hs, i1]
        by_cases hx : ∃ az ∈ azs, Sees q az j
        · rw [if_pos hx, if_pos (iff.2 hx)]; ring
        · rw [if_neg hx, if_neg (fun h => hx (iff.1 h))]; ring
      · intro h
        rw [i4 (fun hx => h (iff.2 hx))]; ring

theorem length_filter_sum (c : ℚ) (p : ℕ → Prop) [DecidablePred p] (l : List ℕ) :
    (l.map (fun j => if p j then c else 0)).sum = c * (l.filter (fun j => decide (p j))).length := by
  induction l with
  | nil => simp
  | cons x l ih =>
    rw [List.map_cons, List.sum_cons, ih, List.filter_cons]
    by_cases h : p x
    · simp [h]; ring
    · simp [h]

theorem filter_sum (f : ℕ → ℚ) (p : ℕ → Prop) [DecidablePred p] (l : List ℕ) :
    (l.map (fun j => if p j then f j else 0)).sum = ((l.filter (fun j => decide (p j))).map f).sum := by
  induction l with
  | nil => simp
  | cons x l ih =>
    rw [List.map_cons, List.sum_cons, ih, List.filter_cons]
    by_cases h : p x <;> simp [h]

theorem sum_div (f : ℕ → ℚ) (m : ℚ) (l : List ℕ) :
    (l.map (fun j => f j / m)).sum = (l.map f).sum / m := by
  induction l with
  | nil => simp
  | cons x l ih => simp [ih, add_div]

theorem sum_div' (f : ℚ → ℚ) (m : ℚ) (l : List ℚ) :
    (l.map (fun j => f j / m)).sum = (l.map f).sum / m := by
  induction l with
  | nil => simp
  | cons x l ih => simp [ih, add_div]

theorem spread_eq (azs : List ℚ) : spread q azs / q.maxDist =
    (q.js.map (fun j => (azs.map (fun az => if Sees q az j then q.dev az j / q.maxDist else 0)).sum)).sum := by
  rw [← sum_comm_list (fun az j => if Sees q az j then q.dev az j / q.maxDist else 0) azs q.js]
  unfold spread
  rw [← sum_div']
  congr 1
  apply List.map_congr_left
  intro az _
  rw [filter_sum, sum_div]
  congr 2
  apply List.map_congr_left
  intro j _
  unfold dev typeWeight
  cases q.weight <;> rfl

theorem sum_bounds (f : ℕ → ℚ) (b : ℚ) (l : List ℕ) (h : ∀ j, 0 ≤ f j ∧ f j ≤ b) :
    0 ≤ (l.map f).sum ∧ (l.map f).sum ≤ b * l.length := by
  induction l with
  | nil => simp
  | cons x l ih =>
    simp only [List.map_cons, List.sum_cons, List.length_cons, Nat.cast_add, Nat.cast_one]
    have := h x
    exact ⟨by linarith, by linarith⟩

/-- The metric: the links nobody sees first, then the spread. -/
theorem metric (hq : Sensible q) (hN : 0 < q.neighbours) (azs : List ℚ) (hb : ∀ a ∈ azs, IsBearing a)
    (ha : azs.Pairwise (fun a b => q.scan ≤ bearingGap a b)) :
    (azs.map (fun az => (q.js.map (q.entry az)).sum)).sum =
      q.penalty * azs.length * q.neighbours - q.penalty * seen q azs + spread q azs / q.maxDist ∧
    0 ≤ spread q azs / q.maxDist ∧ spread q azs / q.maxDist < q.penalty := by
  have hcol := fun j => q.column hq hN j azs hb ha
  refine ⟨?_, ?_, ?_⟩
  · rw [sum_comm_list q.entry azs q.js, spread_eq]
    rw [List.map_congr_left (fun j _ => (hcol j).1)]
    rw [List.sum_map_add]
    congr 1
    have : (q.js.map (fun j => q.penalty * (azs.length : ℚ) - if ∃ az ∈ azs, Sees q az j then q.penalty else 0)).sum =
        (q.js.map (fun _ => q.penalty * (azs.length : ℚ))).sum -
        (q.js.map (fun j => if ∃ az ∈ azs, Sees q az j then q.penalty else 0)).sum := by
      generalize q.js = l
      induction l with
      | nil => simp
      | cons x l ih => simp only [List.map_cons, List.sum_cons, ih]; ring
    rw [this, length_filter_sum]
    congr 1
    simp [js]; ring
  · rw [spread_eq]
    exact (sum_bounds _ 972000 _ (fun j => ⟨(hcol j).2.1, (hcol j).2.2.1⟩)).1
  · rw [spread_eq]
    refine lt_of_le_of_lt (sum_bounds _ 972000 _ (fun j => ⟨(hcol j).2.1, (hcol j).2.2.1⟩)).2 ?_
    unfold penalty js
    rw [List.length_range]
    have : (0 : ℚ) < q.neighbours := by exact_mod_cast hN
    linarith

end Search
end Verif
