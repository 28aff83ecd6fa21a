import Verif.Props.Whole
import Verif.Lemmas.WholeDemo

/-! # C185: link capacities when planning starts -/

namespace Verif
namespace Topology

/-- The capacity is that of the wire, none without sectors, and else the one of the link budget. -/
def Budgeted (E : PrepEnv) (l : Link) : Prop :=
  (l.isWireless = false → l.capacity = E.popCapacity) ∧
  (l.isWireless = true → l.sectors = none → l.capacity = 0) ∧
  (l.isWireless = true → l.sectors ≠ none → ∃ before, E.estimate { l with capacity := before } = .ok l.capacity)

theorem addCapacity_step {E : PrepEnv} {t t' : Topology} {k : LinkId} (h : addCapacity E t k = (t', none)) :
    (∀ l, t'.links.get? k = some l → Budgeted E l) ∧ ∀ j, j ≠ k → t'.links.get? j = t.links.get? j := by
  unfold addCapacity at h
  split at h
  · cases h
  · rename_i l hl
    dsimp only at h
    split at h
    · cases h
    · rename_i c hc
      cases h
      constructor
      · intro m hm
        dsimp only at hm
        rw [Dict.get?_modify, if_pos rfl, hl] at hm
        cases hm
        refine ⟨fun w => ?_, fun w s => ?_, fun w s => ⟨l.capacity, ?_⟩⟩
        · rw [if_pos (by simpa using w)] at hc
          cases hc
          rfl
        · rw [if_neg (by simpa using w), if_pos (by simpa using s)] at hc
          cases hc
          rfl
        · rw [if_neg (by simpa using w), if_neg (by simpa using s)] at hc
          exact hc
      · intro j hj
        dsimp only
        rw [Dict.get?_modify, if_neg (by tauto)]

theorem addCapacity_all {E : PrepEnv} {t t' : Topology} (L : List LinkId) (h : foldOut (addCapacity E) t L = (t', none)) :
    (∀ k ∈ L, ∀ l, t'.links.get? k = some l → Budgeted E l) ∧ ∀ k, k ∉ L → t'.links.get? k = t.links.get? k := by
  have := foldOut_prefix (f := addCapacity E)
    (fun P u => (∀ k ∈ P, ∀ l, u.links.get? k = some l → Budgeted E l) ∧ ∀ k, k ∉ P → u.links.get? k = t.links.get? k)
    (fun P a u u' q s => by
      obtain ⟨s1, s2⟩ := addCapacity_step s
      constructor
      · intro k hk l hl
        by_cases e : k = a
        · subst e; exact s1 l hl
        · rw [s2 k e] at hl
          refine q.1 k ?_ l hl
          simpa [e] using hk
      · intro k hk
        simp only [List.mem_append, List.mem_singleton, not_or] at hk
        rw [s2 k hk.2, q.2 k hk.1]) L [] t t' ⟨by simp, fun _ _ => rfl⟩ h
  simpa using this

theorem latLoop_links {hash : DemandHash} {demand : ℚ} {g : Grid} {lon : ℚ} : ∀ (fuel : Nat) (t : Topology) (lat : ℚ)
    (o : Out), latLoop hash demand g lon fuel t lat = some o → o.1.links = t.links
  | 0, t, lat, o, h => by cases h
  | fuel + 1, t, lat, o, h => by
    unfold latLoop at h
    split at h
    · have k : (t.addGridPoint hash demand lon lat).1.links = t.links := by
        unfold addGridPoint
        split <;> rfl
      generalize t.addGridPoint hash demand lon lat = a at h k
      obtain ⟨t1, e⟩ := a
      cases e with
      | some e => cases h; exact k
      | none => exact (latLoop_links fuel t1 _ o h).trans k
    · cases h; rfl

theorem lonLoop_links {hash : DemandHash} {demand : ℚ} {g : Grid} {rounds : Nat} : ∀ (fuel : Nat) (t : Topology)
    (lon : ℚ) (o : Out), lonLoop hash demand g rounds fuel t lon = some o → o.1.links = t.links
  | 0, t, lon, o, h => by cases h
  | fuel + 1, t, lon, o, h => by
    unfold lonLoop at h
    split at h
    · split at h
      · cases h
      · rename_i t1 e h1
        cases h
        exact latLoop_links _ _ _ _ h1
      · rename_i t1 h1
        exact (lonLoop_links fuel t1 _ o h).trans (latLoop_links _ _ _ _ h1)
    · cases h; rfl

theorem finish_links (t : Topology) (hash : DemandHash) (dist : Dist) (p : DemandParams) (manual : List DemandId) :
    (t.finishDemand hash dist p manual).1.links = t.links := by
  have h1 : ∀ (L : List DemandId) (t : Topology), (L.foldl (connectNear dist p.radius manual) t).links = t.links := by
    intro L
    induction L with
    | nil => intro t; rfl
    | cons a L ih =>
      intro t
      rw [List.foldl_cons, ih]
      unfold connectNear
      repeat' split
      all_goals rfl
  have h2 : ∀ (L : List Site) (st : Topology × Dict (ℚ × ℚ) DemandId),
      (L.foldl (cnStep hash p.demand) st).1.links = st.1.links := by
    intro L
    induction L with
    | nil => intro t; rfl
    | cons a L ih =>
      intro t
      rw [List.foldl_cons, ih]
      unfold cnStep
      split <;> rfl
  unfold finishDemand
  dsimp only
  have h3 : (if p.cn then (t.demandSites.keys.foldl (connectNear dist p.radius manual) t).addCnDemand hash p.demand
      else t.demandSites.keys.foldl (connectNear dist p.radius manual) t).links = t.links := by
    split
    · exact (h2 _ _).trans (h1 _ _)
    · exact h1 _ _
  generalize (if p.cn then (t.demandSites.keys.foldl (connectNear dist p.radius manual) t).addCnDemand hash p.demand
      else t.demandSites.keys.foldl (connectNear dist p.radius manual) t) = u at *
  split <;> exact h3

theorem addDemand_links {t : Topology} {hash : DemandHash} {dist : Dist} {p : DemandParams} {fuel : Nat}
    {o : Out} (h : t.addDemand hash dist p fuel = some o) : o.1.links = t.links := by
  have r : (t.resetDemand p).links = t.links := by
    unfold resetDemand
    split <;> rfl
  have g : ∀ a, (if p.uniform then (t.resetDemand p).addUniform hash p.demand p.dx p.dy fuel
      else some (t.resetDemand p, none)) = some a → a.1.links = t.links := by
    intro a ha
    split at ha
    · unfold addUniform at ha
      split at ha
      · cases ha; exact r
      · exact (lonLoop_links _ _ _ _ ha).trans r
    · cases ha; exact r
  unfold addDemand at h
  dsimp only at h
  generalize (if p.uniform then (t.resetDemand p).addUniform hash p.demand p.dx p.dy fuel
      else some (t.resetDemand p, none)) = x at h g
  match x, g, h with
  | some (t1, some e), g, h => cases h; exact g _ rfl
  | some (t1, none), g, h =>
    cases h
    exact (finish_links _ _ _ _ _).trans (g _ rfl)

/-- **C185.** In a topology that has been prepared for planning, every link has the capacity that its kind demands,
whatever capacities the input had: the POP capacity for a wired link, nothing for a wireless one without sectors at
both ends, and that of the link budget for the others. -/
theorem C185_capacities (E : PrepEnv) (t u : Topology) (h : t.prepare E = some (u, none)) :
    ∀ k l, u.links.get? k = some l → Budgeted E l := by
  intro k l hl
  unfold prepare at h
  split at h
  · cases h
  · rename_i t1 _
    split at h
    · cases h
    · rename_i t2 h2
      rw [addDemand_links h] at hl
      obtain ⟨a1, a2⟩ := addCapacity_all _ h2
      by_cases c : k ∈ t1.links.keys
      · exact a1 k c l hl
      · rw [a2 k c] at hl
        exact absurd ((Dict.mem_keys_iff _ _).2 ⟨l, hl⟩) c

/-- The demo is prepared, and its link has the capacity of the budget. -/
example : ∃ u, (run {} wholeDemo).prepare wholeEnv = some (u, none) ∧ u.links.vals.map (·.capacity) = [4] :=
  ⟨_, wholeDemo_prepared, by decide +kernel⟩

end Topology
end Verif
