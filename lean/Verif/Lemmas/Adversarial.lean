import Verif.Model.Adversarial
import Verif.Lemmas.NxLoop
import Verif.Props.NxReport

/-! Lemmas about the search for disruptive links. -/

namespace Verif
namespace Graph
open Verif.Spec

theorem mem_addTo {R : List GEdge} {e x : GEdge} : x ∈ addTo R e ↔ x ∈ R ∨ x = e := by
  unfold addTo
  split
  · rename_i h
    constructor
    · exact Or.inl
    · rintro (h1 | rfl)
      · exact h1
      · simpa using h
  · rw [List.mem_cons, or_comm]

theorem addTo_nodup {R : List GEdge} {e : GEdge} (h : R.Nodup) : (addTo R e).Nodup := by
  unfold addTo
  split
  · exact h
  · rename_i hn
    exact List.nodup_cons.2 ⟨by simpa using hn, h⟩

theorem addTo_length {R : List GEdge} {e : GEdge} : (addTo R e).length ≤ R.length + 1 ∧ R.length ≤ (addTo R e).length := by
  unfold addTo
  split
  · omega
  · simp

/-- What the search keeps true of the edges `R` and links `K` found so far. -/
structure Found (P C : Graph) (conn : List GNode) (D : Dict GEdge (List GNode)) (count : Int)
    (R K : List GEdge) : Prop where
  nodup : R.Nodup
  iff : ∀ e, e ∈ R ↔ C.edge e ∧ (e ∈ K ∨ e.swap ∈ K)
  lenK : (K.length : Int) ≤ count
  lenR : (R.length : Int) ≤ count + 1
  served : ∀ d ∈ conn, Joined (fun e => C.edge e ∧ e ∉ R) .super d
  keys : ∀ k ∈ K, k ∈ D.keys ∧ (D.get? k).getD [] ≠ []
  sub : ∀ k ∈ K, k ∈ R
  leK : K.length ≤ R.length

/-- The weight by which links are sorted. -/
abbrev weight (D : Dict GEdge (List GNode)) (k : GEdge) : Nat := ((D.get? k).getD []).length

theorem disruptLoop_spec {P C : Graph} {conn : List GNode} {D : Dict GEdge (List GNode)} {count : Int}
    (hconn : ∀ d ∈ conn, d ≠ .super)
    (hready : ∀ k ∈ D.keys, k.1 ≠ k.2 ∧ C.edge k ∧
      ∃ kd, (P.edges.get? k).bind (·.kind) = some kd ∧ kd ≠ .link .wirelessAccess)
    (L : List GEdge) (hL : ∀ k ∈ L, k ∈ D.keys) (hsort : L.Pairwise fun a b => weight D b ≤ weight D a)
    (H : Graph) (R K : List GEdge) (hH : H.nodes.has .super = true)
    (hs : ∀ e, H.edge e ↔ C.edge e ∧ e ∉ R) (hF : Found P C conn D count R K)
    (hw : ∀ k ∈ K, ∀ k' ∈ L, weight D k' ≤ weight D k) :
    ∃ R' K', disruptLoop P C conn D count H R L = .ok R' ∧ Found P C conn D count R' K' ∧
      (∀ e ∈ R, e ∈ R') ∧
      ∀ k ∈ L, k ∈ R' ∨ (D.get? k).getD [] = [] ∨
        (count ≤ R'.length ∧ ∀ k' ∈ K', weight D k ≤ weight D k') ∨
        ∃ d ∈ conn, ¬ Joined (fun e => C.edge e ∧ e ∉ R' ∧ e ≠ k ∧ e ≠ k.swap) .super d := by
  induction L generalizing H R K with
  | nil => exact ⟨R, K, rfl, hF, fun _ h => h, by simp⟩
  | cons x L ih =>
    obtain ⟨u, v⟩ := x
    have hL' : ∀ k ∈ L, k ∈ D.keys := fun k hk => hL k (List.mem_cons_of_mem _ hk)
    rw [List.pairwise_cons] at hsort
    have hw' : ∀ k ∈ K, ∀ k' ∈ L, weight D k' ≤ weight D k :=
      fun k hk k' hk' => hw k hk k' (List.mem_cons_of_mem _ hk')
    unfold disruptLoop
    by_cases c1 : count ≤ R.length
    · rw [if_pos c1]
      exact ⟨R, K, rfl, hF, fun _ h => h, fun k hk => Or.inr (Or.inr (Or.inl ⟨c1, fun k' hk' => hw k' hk' k hk⟩))⟩
    rw [if_neg c1]
    by_cases c2 : ((D.get? (u, v)).getD []).length = 0
    · rw [if_pos c2]
      refine ⟨R, K, rfl, hF, fun _ h => h, fun k hk => Or.inr (Or.inl ?_)⟩
      rcases List.mem_cons.1 hk with rfl | hk
      · exact List.length_eq_zero_iff.1 c2
      · have := hsort.1 k hk
        unfold weight at this
        rw [c2] at this
        exact List.length_eq_zero_iff.1 (Nat.le_zero.1 this)
    rw [if_neg c2]
    obtain ⟨hne, hC, kd, hkd, hna⟩ := hready (u, v) (hL _ List.mem_cons_self)
    dsimp only at hne
    rw [hkd]
    dsimp only
    rw [if_neg hna]
    by_cases c3 : (u, v) ∈ R
    · simp only [List.contains_iff_mem, c3, if_true]
      obtain ⟨R', K', h1, h2, h3, h4⟩ := ih hL' hsort.2 H R K hH hs hF hw'
      refine ⟨R', K', h1, h2, h3, fun k hk => ?_⟩
      rcases List.mem_cons.1 hk with rfl | hk
      · exact Or.inl (h3 _ c3)
      · exact h4 k hk
    simp only [List.contains_iff_mem, c3, if_false]
    have c3' : (v, u) ∉ R := by
      intro c
      obtain ⟨_, h⟩ := (hF.iff _).1 c
      exact c3 ((hF.iff _).2 ⟨hC, h.symm⟩)
    have hrev : H.hasEdge v u = C.hasEdge v u := by
      rw [Bool.eq_iff_iff, hasEdge_iff, hasEdge_iff, hs]
      exact ⟨fun h => h.1, fun h => ⟨h, c3'⟩⟩
    have hHe : H.edge (u, v) := (hs _).2 ⟨hC, c3⟩
    obtain ⟨H1, hcut, hn, he⟩ := cut_ok (fun e => Iff.rfl) hHe hne
    rw [← hrev, hcut]
    dsimp only
    have hsup : H1.nodes.has .super = true := by rw [hn]; exact hH
    rw [descendants_ok hsup]
    dsimp only
    have hH1 : ∀ e, H1.edge e ↔ C.edge e ∧ e ∉ R ∧ e ≠ (u, v) ∧ e ≠ (v, u) := by
      intro e
      rw [he]
      unfold without
      rw [hs, and_assoc]
    have hH1e : H1.edge = fun e => C.edge e ∧ e ∉ R ∧ e ≠ (u, v) ∧ e ≠ (v, u) :=
      funext fun e => propext (hH1 e)
    have hmem : ∀ d ∈ conn, (d ∈ (H1.reach .super).filter (· ≠ .super) ↔
        Joined (fun e => C.edge e ∧ e ∉ R ∧ e ≠ (u, v) ∧ e ≠ (v, u)) .super d) := by
      intro d hd
      rw [List.mem_filter, mem_reach, hH1e]
      simp only [ne_eq, decide_not, Bool.not_eq_true', decide_eq_false_iff_not, and_iff_left_iff_imp]
      exact fun _ => hconn d hd
    by_cases c4 : ∀ d ∈ conn, Joined (fun e => C.edge e ∧ e ∉ R ∧ e ≠ (u, v) ∧ e ≠ (v, u)) .super d
    · have hz : (conn.filter fun d => !((H1.reach .super).filter (· ≠ .super)).contains d).length = 0 := by
        rw [List.length_eq_zero_iff, List.filter_eq_nil_iff]
        intro d hd
        simp only [Bool.not_eq_true', Bool.not_eq_false]
        rw [List.contains_iff_mem]
        exact (hmem d hd).2 (c4 d hd)
      rw [if_pos hz]
      set R1 := if H.hasEdge v u = true then addTo (addTo R (u, v)) (v, u) else addTo R (u, v) with hR1
      have m1 : ∀ e, e ∈ R1 ↔ e ∈ R ∨ e = (u, v) ∨ (C.edge (v, u) ∧ e = (v, u)) := by
        intro e
        rw [hR1]
        by_cases hr : C.edge (v, u)
        · rw [if_pos (by rw [hrev]; exact (hasEdge_iff _ _ _).2 hr), mem_addTo, mem_addTo]
          tauto
        · rw [if_neg (by rw [hrev]; exact fun c => hr ((hasEdge_iff _ _ _).1 c)), mem_addTo]
          tauto
      have hlen : R1.length ≤ R.length + 2 ∧ R.length + 1 ≤ R1.length := by
        have e1 : (addTo R (u, v)).length = R.length + 1 := by
          unfold addTo
          simp only [List.contains_iff_mem, c3, if_false, List.length_cons]
        have := @addTo_length (addTo R (u, v)) (v, u)
        rw [hR1]
        split <;> omega
      have hs1 : ∀ e, H1.edge e ↔ C.edge e ∧ e ∉ R1 := by
        intro e
        rw [hH1, m1]
        constructor
        · rintro ⟨h1, h2, h3, h4⟩
          exact ⟨h1, by rintro (h | h | h); exacts [h2 h, h3 h, h4 h.2]⟩
        · rintro ⟨h1, h2⟩
          refine ⟨h1, fun c => h2 (Or.inl c), fun c => h2 (Or.inr (Or.inl c)), fun c => h2 (Or.inr (Or.inr ⟨?_, c⟩))⟩
          rw [← c]; exact h1
      have hjoin : (fun e => C.edge e ∧ e ∉ R1) =
          fun e => C.edge e ∧ e ∉ R ∧ e ≠ (u, v) ∧ e ≠ (v, u) :=
        funext fun e => propext ((hs1 e).symm.trans (hH1 e))
      have hF1 : Found P C conn D count R1 ((u, v) :: K) := by
        refine ⟨?_, ?_, ?_, ?_, ?_, ?_, ?_, ?_⟩
        · rw [hR1]
          split
          · exact addTo_nodup (addTo_nodup hF.nodup)
          · exact addTo_nodup hF.nodup
        · intro e
          rw [m1, hF.iff]
          simp only [List.mem_cons]
          have hsw : e.swap = (u, v) ↔ e = (v, u) := by
            obtain ⟨a, b⟩ := e; simp [and_comm]
          rw [hsw]
          constructor
          · rintro (⟨h1, h2⟩ | rfl | ⟨h1, rfl⟩)
            · exact ⟨h1, by tauto⟩
            · exact ⟨hC, by tauto⟩
            · exact ⟨h1, by tauto⟩
          · rintro ⟨h1, (h2 | h2) | (h2 | h2)⟩
            · exact Or.inr (Or.inl h2)
            · exact Or.inl ⟨h1, Or.inl h2⟩
            · exact Or.inr (Or.inr ⟨h2 ▸ h1, h2⟩)
            · exact Or.inl ⟨h1, Or.inr h2⟩
        · have := hF.leK
          rw [List.length_cons]; push_cast; push_cast at c1; omega
        · push_cast at c1; omega
        · intro d hd; rw [hjoin]; exact c4 d hd
        · intro k hk
          rcases List.mem_cons.1 hk with rfl | hk
          · exact ⟨hL _ List.mem_cons_self, fun c => c2 (by rw [c]; rfl)⟩
          · exact hF.keys k hk
        · intro k hk
          rw [m1]
          rcases List.mem_cons.1 hk with rfl | hk
          · exact Or.inr (Or.inl rfl)
          · exact Or.inl (hF.sub k hk)
        · have := hF.leK
          rw [List.length_cons]; omega
      obtain ⟨R', K', h1, h2, h3, h4⟩ := ih hL' hsort.2 H1 R1 ((u, v) :: K) hsup hs1 hF1 (by
        intro k hk k' hk'
        rcases List.mem_cons.1 hk with rfl | hk
        · exact hsort.1 k' hk'
        · exact hw' k hk k' hk')
      refine ⟨R', K', h1, h2, fun e he => h3 e ((m1 e).2 (Or.inl he)), fun k hk => ?_⟩
      rcases List.mem_cons.1 hk with rfl | hk
      · exact Or.inl (h3 _ ((m1 _).2 (Or.inr (Or.inl rfl))))
      · exact h4 k hk
    · have hz : ¬ (conn.filter fun d => !((H1.reach .super).filter (· ≠ .super)).contains d).length = 0 := by
        intro c
        rw [List.length_eq_zero_iff, List.filter_eq_nil_iff] at c
        apply c4
        intro d hd
        have := c d hd
        simp only [Bool.not_eq_true', Bool.not_eq_false] at this
        rw [List.contains_iff_mem] at this
        exact (hmem d hd).1 this
      rw [if_neg hz]
      obtain ⟨R', K', h1, h2, h3, h4⟩ := ih hL' hsort.2 (H1.uncut u v (H.hasEdge v u)) R K (uncut_has hsup)
        (fun e => (uncut_edge hHe he e).trans (hs e)) hF hw'
      refine ⟨R', K', h1, h2, h3, fun k hk => ?_⟩
      rcases List.mem_cons.1 hk with rfl | hk
      · push Not at c4
        obtain ⟨d, hd, hd2⟩ := c4
        refine Or.inr (Or.inr (Or.inr ⟨d, hd, fun c => hd2 ?_⟩))
        refine Relation.ReflTransGen.mono ?_ _ _ c
        rintro a b ⟨g1, g2, g3, g4⟩
        exact ⟨g1, fun c => g2 (h3 _ c), g3, g4⟩
      · exact h4 k hk

end Graph
end Verif
