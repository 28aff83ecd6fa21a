import Verif.Model.Pipeline
import Verif.Spec.Pipeline
import Verif.Lemmas.Via2
import Verif.Props.Solution
import Verif.Props.PopProposal

/-!
# A planning run as a whole (C156)
-/

namespace Verif
namespace Topology

instance plainFact (t : Topology) (c : Bool) (g : Prop) : Fact ((Base.mk t c false g).still = false) := ⟨rfl⟩

theorem Phase.next_some {r : Phase} {k : Topology → Option Phase} {x : Phase} (h : r.next k = some x) :
    (∃ e, r = (x.1, some e) ∧ x.2 = some e) ∨ (r.2 = none ∧ k r.1 = some x) := by
  obtain ⟨t, e⟩ := r
  cases e with
  | some e => simp only [Phase.next, Option.some.injEq] at h; subst h; exact .inl ⟨e, rfl, rfl⟩
  | none => exact .inr ⟨rfl, h⟩

theorem via_popStep {b : Base} [hb : Fact (b.still = false)] {O : Outside} {p : RunParams} {t : Topology} {r : Phase}
    (hg : p.extraPops ≠ 0 → b.grow)
    (ib : Inv (b : Topology)) (it : Inv t) (k : Extends b.grow b t) (h : popStep O p t = some r) : Via b t r.1 := by
  unfold popStep at h
  split at h
  · cases h; exact Via.refl b t
  · rename_i h0
    rw [Option.map_eq_some_iff] at h
    obtain ⟨a, -, h⟩ := h
    split at h
    · subst h; exact Via.refl b t
    · split at h
      · subst h; exact Via.refl b t
      · split at h
        · subst h; exact Via.refl b t
        · subst h; exact Via.refl b t
        · subst h; exact via_addPops (hg h0) ib it k _ _

theorem via_phase {b : Base} [hb : Fact (b.still = false)] {t : Topology} (it : Inv t) {sol : Solution} {r : Phase}
    (h : (updateWithSolution sol t).map Out.phase = some r) : Via b t r.1 := by
  rw [Option.map_eq_some_iff] at h
  obtain ⟨⟨a, e⟩, ha, rfl⟩ := h
  exact via_update sol it ha

theorem via_costStep {b : Base} [hb : Fact (b.still = false)] {O : Outside} {p : OptParams} {t : Topology} {r : Phase}
    (it : Inv t) (h : costStep O p t = some r) : Via b t r.1 := by
  unfold costStep at h
  split at h
  · cases h; exact Via.refl b t
  · split at h
    · cases h; exact Via.refl b t
    · exact via_phase it h
    · cases h; exact Via.refl b t
    · split at h <;> cases h <;> exact Via.refl b t

theorem via_coverageStep {b : Base} [hb : Fact (b.still = false)] {O : Outside} {p : RunParams} {t : Topology} {r : Phase}
    (it : Inv t) (h : coverageStep O p t = some r) : Via b t r.1 := by
  unfold coverageStep at h
  split at h
  · cases h; exact Via.refl b t
  · split at h
    · cases h; exact Via.refl b t
    · dsimp only at h
      split at h
      · cases h; exact Via.refl b t
      · split at h
        · cases h; exact Via.refl b t
        · split at h
          · cases h; exact Via.refl b t
          · split at h
            · cases h; exact Via.refl b t
            · cases h; exact Via.refl b t
            · exact via_phase it h

theorem via_redundancyStep {b : Base} [hb : Fact (b.still = false)] {O : Outside} {p : RunParams} {t : Topology} {r : Phase}
    (it : Inv t) (h : redundancyStep O p t = some r) : Via b t r.1 := by
  unfold redundancyStep at h
  split at h
  · cases h; exact Via.refl b t
  · dsimp only at h
    split at h
    · cases h; exact Via.refl b t
    · split at h
      · cases h; exact Via.refl b t
      · split at h
        · cases h; exact Via.refl b t
        · exact via_phase it h

theorem via_interferenceStep {b : Base} [hb : Fact (b.still = false)] {O : Outside} {p : OptParams} {t : Topology} {r : Phase}
    (it : Inv t) (h : interferenceStep O p t = some r) : Via b t r.1 := by
  unfold interferenceStep at h
  split at h
  · cases h; exact Via.refl b t
  · dsimp only at h
    split at h
    · cases h; exact Via.refl b t
    · split at h
      · cases h; exact Via.refl b t
      · split at h
        · cases h; exact Via.refl b t
        · split at h
          · cases h; exact Via.refl b t
          · cases h; exact Via.refl b t
          · exact via_phase it h

theorem via_secondStep {b : Base} [hb : Fact (b.still = false)] {O : Outside} {p : RunParams} {t : Topology} {r : Phase}
    (it : Inv t) (h : secondStep O p t = some r) : Via b t r.1 := by
  unfold secondStep at h
  split at h
  · exact via_coverageStep it h
  · exact via_redundancyStep it h

theorem via_markPhase {b : Base} [hb : Fact (b.still = false)] {t : Topology} {lim : Option Nat} {r : Phase}
    (h : (t.markUnreachable lim).map Out.phase = some r) : Via b t r.1 := by
  rw [Option.map_eq_some_iff] at h
  obtain ⟨⟨a, e⟩, ha, rfl⟩ := h
  exact via_mark lim ha

/-- The states a planning run goes through. -/
theorem via_optimize {t0 : Topology} (i0 : Inv t0) {O : Outside} {p : RunParams} {x : Phase}
    (h : optimize O p t0 = some x) : Via ⟨t0, true, false, p.extraPops ≠ 0⟩ t0 x.1 := by
  unfold optimize at h
  dsimp only at h
  set b : Base := ⟨t0, true, false, p.extraPops ≠ 0⟩
  have hbt : Fact (b.still = false) := ⟨rfl⟩
  have v0 : Via b t0 t0.sort := Via.step .sort trivial
  have i1 := v0.inv i0
  rw [Option.bind_eq_some_iff] at h
  obtain ⟨r, hr, h⟩ := h
  have v1 := v0.trans (via_popStep id i0 i1 (v0.extends_ i0 i0 (Extends.refl _ _)) hr)
  rcases Phase.next_some h with ⟨e, rfl, -⟩ | ⟨-, h⟩
  · exact v1
  rw [Option.bind_eq_some_iff] at h
  obtain ⟨r2, hr2, h⟩ := h
  have v2 := v1.trans (via_markPhase (b := b) hr2)
  rcases Phase.next_some h with ⟨e, rfl, -⟩ | ⟨-, h⟩
  · exact v2
  rw [Option.bind_eq_some_iff] at h
  obtain ⟨r3, hr3, h⟩ := h
  have v3 := v2.trans (via_costStep (v2.inv i0) hr3)
  rcases Phase.next_some h with ⟨e, rfl, -⟩ | ⟨-, h⟩
  · exact v3
  rw [Option.bind_eq_some_iff] at h
  obtain ⟨r4, hr4, h⟩ := h
  have v4 := v3.trans (via_secondStep (v3.inv i0) hr4)
  rcases Phase.next_some h with ⟨e, rfl, -⟩ | ⟨-, h⟩
  · exact v4
  rw [Option.bind_eq_some_iff] at h
  obtain ⟨r5, hr5, h⟩ := h
  have v5 := v4.trans (via_interferenceStep (v4.inv i0) hr5)
  rcases Phase.next_some h with ⟨e, rfl, -⟩ | ⟨-, h⟩
  · exact v5
  cases h
  exact v5.trans (via_readjust rfl (v5.inv i0) _ _)

theorem access_some {t : Topology} (it : Inv t) : ∃ o, t.accessTopology = some o := by
  unfold accessTopology
  obtain ⟨j, -⟩ := removeLinks_spec t.dnsToPops.backhaulIds (Inv.dnsToPops it)
  generalize t.dnsToPops.removeLinks t.dnsToPops.backhaulIds = o at *
  obtain ⟨a, _ | e⟩ := o
  · dsimp only at j ⊢
    obtain ⟨hc, h, -⟩ := hops_spec (t := a) (f := StatusType.reachable) j
    simp [markUnreachable, h]
  · exact ⟨_, rfl⟩

theorem update_some {t : Topology} (it : Inv t) (sol : Solution) :
    ∃ o, (updateWithSolution sol t).map Out.phase = some o := by
  unfold updateWithSolution
  have v := (via_apply (b := ⟨t, true, false, True⟩) sol it).inv it
  generalize applySolution sol t = o at *
  obtain ⟨a, _ | e⟩ := o
  · dsimp only at v ⊢
    obtain ⟨hc, h, -⟩ := hops_spec (t := a) (f := StatusType.active) v
    simp [removeDisconnected, h]
  · exact ⟨_, rfl⟩

theorem bind_next {r : Option Phase} {k : Topology → Option Phase} (h : ∃ x, r = some x)
    (hk : ∀ x, r = some x → ∃ y, k x.1 = some y) : ∃ y, (r.bind fun r => r.next k) = some y := by
  obtain ⟨⟨t, e⟩, rfl⟩ := h
  obtain ⟨y, hy⟩ := hk _ rfl
  cases e with
  | some e => exact ⟨_, rfl⟩
  | none => exact ⟨y, hy⟩

theorem optimize_some {t0 : Topology} (i0 : Inv t0) (O : Outside) (p : RunParams) : ∃ x, optimize O p t0 = some x := by
  unfold optimize
  dsimp only
  set b : Base := ⟨t0, true, false, p.extraPops ≠ 0⟩
  have hbt : Fact (b.still = false) := ⟨rfl⟩
  have v0 : Via b t0 t0.sort := Via.step .sort trivial
  have i1 := v0.inv i0
  refine bind_next ?_ fun r hr => ?_
  · unfold popStep
    split
    · exact ⟨_, rfl⟩
    · obtain ⟨o, ho⟩ := access_some i1
      simp [Plan.popProposal, ho]
  have v1 := v0.trans (via_popStep id i0 i1 (v0.extends_ i0 i0 (Extends.refl _ _)) hr)
  refine bind_next ?_ fun r hr => ?_
  · obtain ⟨hc, h, -⟩ := hops_spec (t := r.1) (f := StatusType.reachable) (v1.inv i0)
    simp [markUnreachable, h]
  have v2 := v1.trans (via_markPhase (b := b) hr)
  refine bind_next ?_ fun r hr => ?_
  · unfold costStep
    have u := update_some (v2.inv i0)
    split
    · exact ⟨_, rfl⟩
    · split
      · exact ⟨_, rfl⟩
      · exact u _
      · exact ⟨_, rfl⟩
      · split <;> exact ⟨_, rfl⟩
  have v3 := v2.trans (via_costStep (v2.inv i0) hr)
  refine bind_next ?_ fun r hr => ?_
  · have u := update_some (v3.inv i0)
    unfold secondStep
    split
    · unfold coverageStep
      split
      · exact ⟨_, rfl⟩
      · split
        · exact ⟨_, rfl⟩
        · dsimp only
          split
          · exact ⟨_, rfl⟩
          · split
            · exact ⟨_, rfl⟩
            · split
              · exact ⟨_, rfl⟩
              · split
                · exact ⟨_, rfl⟩
                · exact ⟨_, rfl⟩
                · exact u _
    · unfold redundancyStep
      split
      · exact ⟨_, rfl⟩
      · dsimp only
        split
        · exact ⟨_, rfl⟩
        · split
          · exact ⟨_, rfl⟩
          · split
            · exact ⟨_, rfl⟩
            · exact u _
  have v4 := v3.trans (via_secondStep (v3.inv i0) hr)
  refine bind_next ?_ fun r hr => ⟨_, rfl⟩
  have u := update_some (v4.inv i0)
  unfold interferenceStep
  split
  · exact ⟨_, rfl⟩
  · dsimp only
    split
    · exact ⟨_, rfl⟩
    · split
      · exact ⟨_, rfl⟩
      · split
        · exact ⟨_, rfl⟩
        · split
          · exact ⟨_, rfl⟩
          · exact ⟨_, rfl⟩
          · exact u _

/-- **C156**: a planning run on any topology ends, with a plan or with an exception, whatever the solver answers. -/
theorem C156_ends (ops : List Op) (O : Outside) (p : RunParams) : ∃ x, optimize O p (run {} ops) = some x :=
  optimize_some (Inv.empty.run ops) O p

/-- **C156**: also when the run is given up with an exception, nothing of the input is lost or rewritten; new POPs
and links to them appear only if extra POPs were asked for. -/
theorem C156_input_kept (ops : List Op) (O : Outside) (p : RunParams) (t' : Topology) (h : Option Halt)
    (r : optimize O p (run {} ops) = some (t', h)) : Extends (p.extraPops ≠ 0) (run {} ops) t' := by
  have i := Inv.empty.run ops
  exact (via_optimize i r).extends_ i i (Extends.refl _ _)

/-- **C156**: the result is a topology as the API calls build them, so everything proved of those holds of it. -/
theorem C156_result_built (ops : List Op) (O : Outside) (p : RunParams) (t' : Topology) (h : Option Halt)
    (r : optimize O p (run {} ops) = some (t', h)) : ∃ ops', t' = run {} ops' :=
  (via_optimize (Inv.empty.run ops) r).built ops rfl

end Topology
end Verif
