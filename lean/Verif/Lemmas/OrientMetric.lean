import Verif.Lemmas.OrientGeom
import Mathlib.Data.List.Induction

/-! # Selections of candidates and their metric -/

namespace Verif
open Spec

namespace Tableau

variable (T : Tableau)

/-- Two candidates whose nodes do not overlap. -/
def Gap (a b : ℕ) : Prop := T.width ≤ T.az b - T.az a ∧ T.width ≤ 360 - (T.az b - T.az a)

theorem Chain.pairwise (hW : 0 < T.width) {first r x : ℕ} {l : List ℕ} (h : T.Chain first r x l)
    (hf : first < T.size) : l.length = r + 1 ∧ first ∈ l ∧ x ∈ l ∧
      (∀ p ∈ l, p < T.size ∧ T.az first ≤ T.az p ∧ T.az p ≤ T.az x) ∧ l.Pairwise T.Gap := by
  induction h with
  | one =>
    refine ⟨rfl, by simp, by simp, ?_, List.pairwise_singleton _ _⟩
    intro p hp
    rw [List.mem_singleton] at hp
    subst hp
    exact ⟨hf, le_refl _, le_refl _⟩
  | @step r c x l hch hst ih =>
    obtain ⟨i1, i2, i3, i4, i5⟩ := ih
    obtain ⟨s1, s2, s3, s4⟩ := hst
    refine ⟨by simp [i1], List.mem_append_left _ i2, by simp, ?_, ?_⟩
    · intro p hp
      rcases List.mem_append.1 hp with hp | hp
      · obtain ⟨a, b, c⟩ := i4 p hp
        exact ⟨a, b, by linarith⟩
      · rw [List.mem_singleton] at hp
        subst hp
        have := (i4 c i3).2.1
        exact ⟨s2, by linarith, le_refl _⟩
    · rw [List.pairwise_append]
      refine ⟨i5, List.pairwise_singleton _ _, ?_⟩
      intro a ha b hb
      rw [List.mem_singleton] at hb
      subst hb
      obtain ⟨a1, a2, a3⟩ := i4 a ha
      exact ⟨by linarith, by linarith⟩

theorem chain_of_pairwise (hs : T.Sorted) (hW : 0 < T.width) (l : List ℕ) (hne : l ≠ [])
    (hb : ∀ p ∈ l, p < T.size) (hp : l.Pairwise T.Gap) :
    ∃ first x, first < T.size ∧ T.Chain first (l.length - 1) x l := by
  induction l using List.reverseRecOn with
  | nil => exact absurd rfl hne
  | append_singleton l x ih =>
    by_cases h0 : l = []
    · subst h0
      exact ⟨x, x, hb x (by simp), Chain.one⟩
    · rw [List.pairwise_append] at hp
      obtain ⟨first, c, hf, hch⟩ := ih h0 (fun p hp => hb p (List.mem_append_left _ hp)) hp.1
      obtain ⟨_, j2, j3, j4, _⟩ := hch.pairwise T hW hf
      have g1 := hp.2.2 c j3 x (by simp)
      have g2 := hp.2.2 first j2 x (by simp)
      have hx := hb x (by simp)
      have hc := (j4 c j3).1
      have hlt : c < x := by
        by_contra hcon
        rcases Nat.eq_or_lt_of_le (not_lt.1 hcon) with e | e
        · rw [e] at g1; have := g1.1; linarith
        · have := hs _ _ e hc
          have := g1.1
          linarith
      refine ⟨first, x, hf, ?_⟩
      have : (l ++ [x]).length - 1 = (l.length - 1) + 1 := by
        have := List.length_pos_of_ne_nil h0
        simp; omega
      rw [this]
      exact hch.step ⟨hlt, hx, g1.1, by have := g2.2; linarith⟩

end Tableau

namespace Search

variable (q : Search)

theorem mem_validIdx {k : ℕ} : k ∈ q.validIdx ↔ k < numCandidates ∧ q.valid k = true := by
  unfold validIdx
  rw [List.mem_filter, List.mem_range]

theorem validIdx_sorted : q.validIdx.Pairwise (· < ·) :=
  List.Pairwise.filter _ List.pairwise_lt_range

theorem center_eq (k : ℕ) : center k = 3 * (k : ℚ) := by
  unfold center precision; push_cast; ring

theorem center_bearing {k : ℕ} (h : k < numCandidates) : IsBearing (center k) := by
  rw [center_eq]
  have : k < 120 := h
  have h1 : (k : ℚ) < 120 := by exact_mod_cast this
  have h0 : (0 : ℚ) ≤ k := Nat.cast_nonneg _
  exact ⟨by linarith, by linarith⟩

theorem getD_valid {p : ℕ} (h : p < q.validIdx.length) : q.validIdx.getD p 0 ∈ q.validIdx := by
  rw [List.getD_eq_getElem _ _ h]
  exact List.getElem_mem _

theorem tableau_sorted : q.tableau.Sorted := by
  intro x y hxy hy
  change center _ < center _
  have hy' : y < q.validIdx.length := hy
  rw [List.getD_eq_getElem _ _ hy', List.getD_eq_getElem _ _ (lt_trans hxy hy'), center_eq, center_eq]
  have := List.pairwise_iff_getElem.1 q.validIdx_sorted x y (lt_trans hxy hy') hy' hxy
  have : ((q.validIdx[x] : ℕ) : ℚ) < (q.validIdx[y] : ℕ) := by exact_mod_cast this
  linarith

/-- A selection of `num_nodes` candidates whose nodes do not overlap. -/
structure Selection (ks : List ℕ) : Prop where
  len : ks.length = q.numNodes
  mem : ∀ k ∈ ks, k ∈ q.validIdx
  gaps : ks.Pairwise (fun a b => q.width ≤ center b - center a ∧ q.width ≤ 360 - (center b - center a))

/-- The metric of a selection. -/
def total (ks : List ℕ) : ℚ := (ks.map q.nodeMet).sum

theorem exists_positions (ks : List ℕ) (h : ∀ k ∈ ks, k ∈ q.validIdx) :
    ∃ l : List ℕ, (∀ p ∈ l, p < q.validIdx.length) ∧ l.map (fun p => q.validIdx.getD p 0) = ks := by
  induction ks with
  | nil => exact ⟨[], by simp, rfl⟩
  | cons k ks ih =>
    obtain ⟨l, h1, h2⟩ := ih (fun k hk => h k (List.mem_cons_of_mem _ hk))
    obtain ⟨p, hp, e⟩ := List.mem_iff_getElem.1 (h k List.mem_cons_self)
    refine ⟨p :: l, ?_, ?_⟩
    · intro x hx
      rcases List.mem_cons.1 hx with rfl | hx
      · exact hp
      · exact h1 x hx
    · rw [List.map_cons, h2, List.getD_eq_getElem _ _ hp, e]

/-- The dynamic program finds the best selection. -/
theorem search_best (hW : 0 < q.width) (hn : 0 < q.numNodes) :
    (q.tableau.search (List.range q.tableau.size) q.initialBest none = none ∧
      ∀ ks, q.Selection ks → q.initialBest ≤ q.total ks) ∨
    (∃ l, q.tableau.search (List.range q.tableau.size) q.initialBest none = some l ∧
      q.Selection (l.map (fun p => q.validIdx.getD p 0)) ∧
      ∀ ks, q.Selection ks → q.total (l.map (fun p => q.validIdx.getD p 0)) ≤ q.total ks) := by
  have hs := q.tableau_sorted
  have hr : ∀ x, x < q.tableau.size → q.tableau.az x < 360 := fun x hx =>
    (center_bearing (q.mem_validIdx.1 (q.getD_valid hx)).1).2
  have hco : ∀ l, q.tableau.cost l = q.total (l.map (fun p => q.validIdx.getD p 0)) := by
    intro l
    unfold Tableau.cost total
    rw [List.map_map]
    rfl
  have sel : ∀ ks, q.Selection ks → ∃ f l, f < q.tableau.size ∧ q.tableau.From f l ∧
      q.tableau.cost l = q.total ks := by
    intro ks hk
    obtain ⟨l, h1, h2⟩ := q.exists_positions ks hk.mem
    have hlen : l.length = q.numNodes := by rw [← hk.len, ← h2]; simp
    have hp : l.Pairwise q.tableau.Gap := by
      have := hk.gaps
      rw [← h2, List.pairwise_map] at this
      exact this
    obtain ⟨f, x, hf, hch⟩ := q.tableau.chain_of_pairwise hs hW l
      (by intro e; rw [e] at hlen; simp at hlen; omega) h1 hp
    refine ⟨f, l, hf, ⟨x, ?_⟩, by rw [hco, h2]⟩
    rw [hlen] at hch
    exact hch
  have := q.tableau.search_spec hs hW hn hr q.tableau.size 0 q.initialBest none (by simp)
  rw [← List.range_eq_range'] at this
  rcases this with ⟨e, h⟩ | ⟨f, l, h1, h2, h3, h4, h5, h6⟩
  · left
    refine ⟨e, ?_⟩
    intro ks hk
    obtain ⟨f, l, hf, hfr, hc⟩ := sel ks hk
    rw [← hc]
    exact h f l (Nat.zero_le _) hf hfr
  · right
    refine ⟨l, h3, ?_, ?_⟩
    · obtain ⟨x, hch⟩ := h4
      obtain ⟨i1, i2, i3, i4, i5⟩ := hch.pairwise q.tableau hW h2
      refine ⟨?_, ?_, ?_⟩
      · rw [List.length_map, i1]
        have : q.tableau.n = q.numNodes := rfl
        omega
      · intro k hk
        obtain ⟨p, hp, rfl⟩ := List.mem_map.1 hk
        exact q.getD_valid (i4 p hp).1
      · rw [List.pairwise_map]
        exact i5
    · intro ks hk
      obtain ⟨f', l', hf, hfr, hc⟩ := sel ks hk
      rw [← hc, ← hco]
      exact h6 f' l' (Nat.zero_le _) hf hfr

end Search
end Verif
