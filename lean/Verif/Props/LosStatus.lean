import Verif.Model.Los
import Mathlib.Logic.Relation
import Mathlib.Data.List.Nodup
import Mathlib.Data.List.Dedup
import Mathlib.Data.List.Perm.Subperm
import Mathlib.Tactic.Tauto

/-!
# Connected sites and additional DNs

C24 and C25.
-/

namespace Verif

/-- The sites that a list of neighbour lists gives for `t`. -/
abbrev nbrs (rx : List (List Nat)) (t : Nat) : List Nat := (rx[t]?).getD []

/-- A site is connected by means of the sites `P`: it is a POP in `P`, or a chain of LOS links through sites of `P`
leads from such a POP to it. -/
inductive ConnectedBy (types : List SiteType) (rx : List (List Nat)) (P : List Nat) : Nat → Prop
  | pop (i : Nat) : i ∈ P → types[i]? = some .pop → ConnectedBy types rx P i
  | step (t r : Nat) : ConnectedBy types rx P t → r ∈ nbrs rx t → r ∈ P → ConnectedBy types rx P r

theorem ConnectedBy.mem {types : List SiteType} {rx : List (List Nat)} {P : List Nat} {i : Nat}
    (h : ConnectedBy types rx P i) : i ∈ P := by
  cases h <;> assumption

theorem ConnectedBy.mono {types : List SiteType} {rx : List (List Nat)} {P P' : List Nat} (hP : ∀ i ∈ P, i ∈ P')
    {i : Nat} (h : ConnectedBy types rx P i) : ConnectedBy types rx P' i := by
  induction h with
  | pop i hi ht => exact .pop i (hP i hi) ht
  | step t r _ hr hP' ih => exact .step t r ih hr (hP r hP')

namespace LosStatus

theorem length_filter_ne {L : List Nat} {r : Nat} (h : r ∈ L) : (L.filter (· ≠ r)).length < L.length := by
  refine List.length_filter_lt_length_iff_exists.2 ⟨r, h, by simp⟩

/-- What the loop over the neighbours does. -/
structure Explored (S : Status4) (q ns : List Nat) (S' : Status4) (q' : List Nat) : Prop where
  connected : ∀ i, i ∈ S'.connected ↔ i ∈ S.connected ∨ (i ∈ ns ∧ i ∈ S.unconnected)
  unconnected : ∀ i, i ∈ S'.unconnected ↔ i ∈ S.unconnected ∧ i ∉ ns
  connectable : ∀ i, i ∈ S'.connectable ↔ i ∈ S.connectable ∨ (i ∈ ns ∧ i ∈ S.other)
  other : ∀ i, i ∈ S'.other ↔ i ∈ S.other ∧ i ∉ ns
  queue : ∀ i, i ∈ q' ↔ i ∈ q ∨ (i ∈ ns ∧ i ∈ S.unconnected)
  size : S'.unconnected.length + q'.length ≤ S.unconnected.length + q.length

theorem exploreStep_spec : ∀ (ns : List Nat) (S : Status4) (q : List Nat), (∀ i ∈ S.other, i ∉ S.unconnected) →
    Explored S q ns (exploreStep (S, q) ns).1 (exploreStep (S, q) ns).2
  | [], S, q, _ => by
    constructor <;> simp [exploreStep]
  | r :: ns, S, q, hd => by
    by_cases h1 : r ∈ S.unconnected
    · have e : exploreStep (S, q) (r :: ns) = exploreStep ({ S with
          unconnected := S.unconnected.filter (· ≠ r), connected := r :: S.connected }, q ++ [r]) ns := by
        simp only [exploreStep, List.contains_iff_mem, h1, if_true]
      rw [e]
      have ih := exploreStep_spec ns { S with
          unconnected := S.unconnected.filter (· ≠ r), connected := r :: S.connected } (q ++ [r])
          (by intro i hi; simp only [List.mem_filter]; exact fun c => hd i hi c.1)
      have hr : r ∉ S.other := fun c => hd r c h1
      constructor
      · intro i
        rw [ih.connected]
        simp only [List.mem_cons, List.mem_filter, decide_eq_true_eq]
        by_cases c : i = r
        · subst c; simp [h1]
        · simp [c]
      · intro i
        rw [ih.unconnected]
        simp only [List.mem_cons, List.mem_filter, decide_eq_true_eq]
        tauto
      · intro i
        rw [ih.connectable]
        simp only [List.mem_cons]
        by_cases c : i = r
        · subst c; simp [hr]
        · simp [c]
      · intro i
        rw [ih.other]
        simp only [List.mem_cons]
        by_cases c : i = r
        · subst c; simp [hr]
        · simp [c]
      · intro i
        rw [ih.queue]
        simp only [List.mem_cons, List.mem_append, List.mem_filter, decide_eq_true_eq]
        by_cases c : i = r
        · subst c; simp [h1]
        · simp [c]
      · have := ih.size
        have := length_filter_ne h1
        simp only [List.length_append, List.length_cons, List.length_nil] at *
        omega
    · by_cases h2 : r ∈ S.other
      · have e : exploreStep (S, q) (r :: ns) = exploreStep ({ S with
            other := S.other.filter (· ≠ r), connectable := r :: S.connectable }, q) ns := by
          simp only [exploreStep, List.contains_iff_mem, h1, h2, if_true, if_false]
        rw [e]
        have ih := exploreStep_spec ns { S with
            other := S.other.filter (· ≠ r), connectable := r :: S.connectable } q
            (by intro i hi; exact hd i (List.mem_filter.1 hi).1)
        constructor
        · intro i
          rw [ih.connected]
          simp only [List.mem_cons]
          by_cases c : i = r
          · subst c; simp [h1]
          · simp [c]
        · intro i
          rw [ih.unconnected]
          simp only [List.mem_cons]
          by_cases c : i = r
          · subst c; simp [h1]
          · simp [c]
        · intro i
          rw [ih.connectable]
          simp only [List.mem_cons, List.mem_filter, decide_eq_true_eq]
          by_cases c : i = r
          · subst c; simp [h2]
          · simp [c]
        · intro i
          rw [ih.other]
          simp only [List.mem_cons, List.mem_filter, decide_eq_true_eq]
          tauto
        · intro i
          rw [ih.queue]
          simp only [List.mem_cons]
          by_cases c : i = r
          · subst c; simp [h1]
          · simp [c]
        · exact ih.size
      · have e : exploreStep (S, q) (r :: ns) = exploreStep (S, q) ns := by
          simp only [exploreStep, List.contains_iff_mem, h1, h2, if_false]
        rw [e]
        have ih := exploreStep_spec ns S q hd
        constructor
        · intro i; rw [ih.connected, List.mem_cons]
          by_cases c : i = r
          · subst c; simp [h1]
          · simp [c]
        · intro i; rw [ih.unconnected, List.mem_cons]
          by_cases c : i = r
          · subst c; simp [h1]
          · simp [c]
        · intro i; rw [ih.connectable, List.mem_cons]
          by_cases c : i = r
          · subst c; simp [h2]
          · simp [c]
        · intro i; rw [ih.other, List.mem_cons]
          by_cases c : i = r
          · subst c; simp [h2]
          · simp [c]
        · intro i; rw [ih.queue, List.mem_cons]
          by_cases c : i = r
          · subst c; simp [h1]
          · simp [c]
        · exact ih.size

/-- The invariant of the search. -/
structure BfsInv (types : List SiteType) (rx : List (List Nat)) (picked : List Nat) (S : Status4) (q : List Nat) :
    Prop where
  pops : ∀ i ∈ picked, types[i]? = some .pop → i ∈ S.connected
  pick : ∀ i, i ∈ picked ↔ i ∈ S.connected ∨ i ∈ S.unconnected
  disj : ∀ i ∈ S.connected, i ∉ S.unconnected
  rest : ∀ i, (i < types.length ∧ i ∉ picked) ↔ i ∈ S.connectable ∨ i ∈ S.other
  disj' : ∀ i ∈ S.connectable, i ∉ S.other
  conn : ∀ i ∈ S.connected, ConnectedBy types rx picked i
  able : ∀ i ∈ S.connectable, ∃ t ∈ S.connected, i ∈ nbrs rx t
  queue : ∀ i ∈ q, i ∈ S.connected
  closed : ∀ t ∈ S.connected, t ∈ q ∨ ∀ r ∈ nbrs rx t, r ∉ S.unconnected ∧ r ∉ S.other

theorem BfsInv.other_un {types : List SiteType} {rx : List (List Nat)} {picked : List Nat} {S : Status4} {q : List Nat}
    (h : BfsInv types rx picked S q) : ∀ i ∈ S.other, i ∉ S.unconnected :=
  fun i hi c => ((h.rest i).2 (.inr hi)).2 ((h.pick i).2 (.inr c))

theorem BfsInv.step {types : List SiteType} {rx : List (List Nat)} {picked : List Nat} {S : Status4} {t : Nat}
    {q : List Nat} (h : BfsInv types rx picked S (t :: q)) :
    BfsInv types rx picked (exploreStep (S, q) (nbrs rx t)).1 (exploreStep (S, q) (nbrs rx t)).2 := by
  have E := exploreStep_spec (nbrs rx t) S q h.other_un
  have ht := h.queue t List.mem_cons_self
  constructor
  · intro i hi hp; exact (E.connected i).2 (.inl (h.pops i hi hp))
  · intro i
    rw [h.pick, E.connected, E.unconnected]
    tauto
  · intro i hi
    rw [E.unconnected]
    rcases (E.connected i).1 hi with c | c
    · exact fun d => h.disj i c d.1
    · exact fun d => d.2 c.1
  · intro i
    rw [h.rest, E.connectable, E.other]
    tauto
  · intro i hi
    rw [E.other]
    rcases (E.connectable i).1 hi with c | c
    · exact fun d => h.disj' i c d.1
    · exact fun d => d.2 c.1
  · intro i hi
    rcases (E.connected i).1 hi with c | c
    · exact h.conn i c
    · exact .step t i (h.conn t ht) c.1 ((h.pick i).2 (.inr c.2))
  · intro i hi
    rcases (E.connectable i).1 hi with c | c
    · obtain ⟨u, hu, hr⟩ := h.able i c
      exact ⟨u, (E.connected u).2 (.inl hu), hr⟩
    · exact ⟨t, (E.connected t).2 (.inl ht), c.1⟩
  · intro i hi
    rcases (E.queue i).1 hi with c | c
    · exact (E.connected i).2 (.inl (h.queue i (List.mem_cons_of_mem _ c)))
    · exact (E.connected i).2 (.inr c)
  · intro u hu
    rw [E.queue]
    rcases (E.connected u).1 hu with c | c
    · rcases h.closed u c with d | d
      · rcases List.mem_cons.1 d with rfl | d
        · refine .inr fun r hr => ?_
          rw [E.unconnected, E.other]
          exact ⟨fun x => x.2 hr, fun x => x.2 hr⟩
        · exact .inl (.inl d)
      · refine .inr fun r hr => ?_
        rw [E.unconnected, E.other]
        exact ⟨fun x => (d r hr).1 x.1, fun x => (d r hr).2 x.1⟩
    · exact .inl (.inr c)

theorem explore_spec {types : List SiteType} {rx : List (List Nat)} {picked : List Nat} :
    ∀ (n : Nat) (S : Status4) (q : List Nat), BfsInv types rx picked S q →
      S.unconnected.length + q.length ≤ n → BfsInv types rx picked (explore rx n (S, q)).1 []
  | 0, S, q, h, hn => by
    have : q = [] := List.length_eq_zero_iff.1 (by omega)
    subst this
    exact h
  | n + 1, S, [], h, _ => h
  | n + 1, S, t :: q, h, hn => by
    have E := exploreStep_spec (nbrs rx t) S q h.other_un
    refine explore_spec n _ _ h.step ?_
    have := E.size
    simp only [List.length_cons] at hn
    change _ + (exploreStep (S, q) (nbrs rx t)).2.length ≤ n
    change (exploreStep (S, q) (nbrs rx t)).1.unconnected.length + _ ≤ n
    omega

theorem connectableStatus_inv (types : List SiteType) (rx : List (List Nat)) (picked : List Nat)
    (hp : ∀ i ∈ picked, i < types.length) : BfsInv types rx picked (connectableStatus types rx picked) [] := by
  unfold connectableStatus
  dsimp only
  have mp : ∀ i, i ∈ ((List.range types.length).filter fun i => types[i]? = some .pop && picked.contains i)
      ↔ i ∈ picked ∧ types[i]? = some .pop := by
    intro i
    simp only [List.mem_filter, List.mem_range, Bool.and_eq_true, decide_eq_true_eq, List.contains_iff_mem]
    exact ⟨fun h => ⟨h.2.2, h.2.1⟩, fun h => ⟨hp i h.1, h.2, h.1⟩⟩
  have mu : ∀ i, i ∈ (picked.dedup.filter fun i => !((List.range types.length).filter fun i =>
      types[i]? = some .pop && picked.contains i).contains i) ↔ i ∈ picked ∧ ¬ types[i]? = some .pop := by
    intro i
    rw [List.mem_filter, List.mem_dedup, Bool.not_eq_true', ← Bool.not_eq_true, List.contains_iff_mem, mp]
    tauto
  have mo : ∀ i, i ∈ ((List.range types.length).filter fun i => !picked.contains i)
      ↔ i < types.length ∧ i ∉ picked := by
    intro i
    rw [List.mem_filter, List.mem_range, Bool.not_eq_true', ← Bool.not_eq_true, List.contains_iff_mem]
  have nd1 : ((List.range types.length).filter fun i => types[i]? = some .pop && picked.contains i).Nodup :=
    List.nodup_range.filter _
  have nd2 : (picked.dedup.filter fun i => !((List.range types.length).filter fun i =>
      types[i]? = some .pop && picked.contains i).contains i).Nodup := (List.nodup_dedup _).filter _
  generalize ((List.range types.length).filter fun i => types[i]? = some .pop && picked.contains i) = pops at *
  generalize (picked.dedup.filter fun i => !pops.contains i) = unc at *
  generalize ((List.range types.length).filter fun i => !picked.contains i) = oth at *
  apply explore_spec
  · constructor
    · intro i hi ht; exact (mp i).2 ⟨hi, ht⟩
    · intro i; show _ ↔ i ∈ pops ∨ i ∈ unc; rw [mp, mu]; tauto
    · intro i hi; show i ∉ unc; rw [mu]; exact fun c => c.2 ((mp i).1 hi).2
    · intro i; show _ ↔ i ∈ [] ∨ i ∈ oth; rw [mo]; simp
    · intro i hi; cases hi
    · intro i hi; exact .pop i ((mp i).1 hi).1 ((mp i).1 hi).2
    · intro i hi; cases hi
    · intro i hi; exact hi
    · intro i hi; exact .inl hi
  · show unc.length + pops.length ≤ types.length
    have nd : (unc ++ pops).Nodup := by
      rw [List.nodup_append']
      refine ⟨nd2, nd1, fun i hi hj => ?_⟩
      exact ((mu i).1 hi).2 ((mp i).1 hj).2
    have sub : (unc ++ pops) ⊆ List.range types.length := by
      intro i hi
      rw [List.mem_range]
      rcases List.mem_append.1 hi with c | c
      · exact hp i ((mu i).1 c).1
      · exact hp i ((mp i).1 c).1
    have := (List.Nodup.subperm nd sub).length_le
    simpa using this

end LosStatus

open LosStatus in
/-- **C24.** `get_site_connectable_status` classes every site by what it says: connected are the picked sites that a
chain of LOS links through picked sites joins to a picked POP, unconnected the other picked sites; connectable are
the sites not picked that have LOS from a connected site, and other the remaining sites. So every site is in exactly
one of the four sets. -/
theorem C24_connectable_status (types : List SiteType) (rx : List (List Nat)) (picked : List Nat)
    (hp : ∀ i ∈ picked, i < types.length) (i : Nat) :
    (i ∈ (connectableStatus types rx picked).connected ↔ ConnectedBy types rx picked i)
    ∧ (i ∈ (connectableStatus types rx picked).unconnected ↔ i ∈ picked ∧ ¬ ConnectedBy types rx picked i)
    ∧ (i ∈ (connectableStatus types rx picked).connectable ↔
        i < types.length ∧ i ∉ picked ∧ ∃ t, ConnectedBy types rx picked t ∧ i ∈ (rx[t]?).getD [])
    ∧ (i ∈ (connectableStatus types rx picked).other ↔
        i < types.length ∧ i ∉ picked ∧ ¬ ∃ t, ConnectedBy types rx picked t ∧ i ∈ (rx[t]?).getD []) := by
  have I := connectableStatus_inv types rx picked hp
  have hc : ∀ i, i ∈ (connectableStatus types rx picked).connected ↔ ConnectedBy types rx picked i := by
    intro i
    refine ⟨I.conn i, fun h => ?_⟩
    induction h with
    | pop i hi ht => exact I.pops i hi ht
    | step t r _ hr hP ih =>
      rcases I.closed t ih with c | c
      · cases c
      · exact ((I.pick r).1 hP).resolve_right (c r hr).1
  have ha : i ∈ (connectableStatus types rx picked).connectable ↔
      i < types.length ∧ i ∉ picked ∧ ∃ t, ConnectedBy types rx picked t ∧ i ∈ (rx[t]?).getD [] := by
    constructor
    · intro h
      obtain ⟨t, ht, hr⟩ := I.able i h
      have := (I.rest i).2 (.inl h)
      exact ⟨this.1, this.2, t, (hc t).1 ht, hr⟩
    · rintro ⟨h1, h2, t, ht, hr⟩
      refine ((I.rest i).1 ⟨h1, h2⟩).resolve_right fun c => ?_
      rcases I.closed t ((hc t).2 ht) with d | d
      · cases d
      · exact (d i hr).2 c
  refine ⟨hc i, ?_, ha, ?_⟩
  · rw [← hc i]
    constructor
    · exact fun h => ⟨(I.pick i).2 (.inr h), fun c => I.disj i c h⟩
    · exact fun h => ((I.pick i).1 h.1).resolve_left h.2
  · constructor
    · intro h
      have := (I.rest i).2 (.inr h)
      refine ⟨this.1, this.2, fun c => ?_⟩
      exact I.disj' i (ha.2 ⟨this.1, this.2, c⟩) h
    · rintro ⟨h1, h2, h3⟩
      exact ((I.rest i).1 ⟨h1, h2⟩).resolve_left fun c => h3 (ha.1 c).2.2

/-- A POP that sees a picked DN, which sees a site not picked; that one sees a CN, and another site sees nothing. -/
example : connectableStatus [.pop, .dn, .dn, .cn, .dn] [[1], [0, 2], [1, 3], [], []] [0, 1, 3]
    = { connected := [1, 0], unconnected := [3], connectable := [2], other := [4] } := by decide

end Verif
