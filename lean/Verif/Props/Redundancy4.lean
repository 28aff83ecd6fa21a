import Verif.Props.Redundancy3

/-! # The topology after the redundancy phase is accepted by the next phase -/

namespace Verif
open Plan Topology Spec

/-- **C98, redundancy phase, `_partial`.** The same for the redundancy phase. -/
theorem C98_redundancy_partial (ops : List Op) (p : OptParams) (r : RedParams)
    (restr : Option (List (SiteId × SiteId))) (x : RVars) (t' : Topology)
    (ok : (Plan.mk (run {} ops) p).redErr restr = none)
    (feas : (Plan.mk (run {} ops) p).RedFeasible r restr x)
    (hu : updateWithSolution ((Plan.mk (run {} ops) p).redSolution restr x) (run {} ops) = some (t', none))
    (mirr : Mirrored (run {} ops)) (radio : OpenAreRadio (run {} ops))
    (ends : SectorsAtEnds (run {} ops)) (conn : OldSitesConnected t') :
    t'.validateStatus = none := by
  have inv : Topology.Inv (run {} ops) := Inv.empty.run ops
  obtain ⟨c1, -, -⟩ := C99_consistent ops p r restr x ok feas
  have hv : (run {} ops).validateStatus = none := by
    unfold redErr setupErr at ok
    by_cases h : (run {} ops).validateStatus.isSome = true
    · rw [if_pos h] at ok
      obtain ⟨e, he⟩ := Option.isSome_iff_exists.1 h
      dsimp only at ok
      rw [he] at ok
      cases ok
    · simpa using h
  refine applied_valid inv hv hu ends ?_ ?_ conn
  · intro l hl hr ho hs
    obtain ⟨a, b, h1, h2, h3, _⟩ := ((c1 l hl hs).2.2.2.2 (radio l hl hr ho)).1
    exact ⟨a, b, h1, h2, h3⟩
  · intro l hl r hr ho heq
    have hrid : (⟨l.rx, l.tx⟩ : LinkId) = r.id := inv.link_id _ _ hr
    have rtx : r.tx = l.rx := (congrArg LinkId.tx hrid).symm
    have rrx : r.rx = l.tx := (congrArg LinkId.rx hrid).symm
    have hrm : r ∈ (run {} ops).links.vals := List.mem_map.2 ⟨_, Dict.mem_of_get? _ hr, rfl⟩
    have hl' : (run {} ops).links.get? ⟨r.rx, r.tx⟩ = some l := by
      rw [rtx, rrx]
      exact Plan.linkOf_arcOf (P := ⟨run {} ops, p⟩) inv hl
    obtain ⟨m1, m2, m3⟩ := mirr l hl r hr
    have key : ∀ (l r : Link), l ∈ (run {} ops).links.vals → r ∈ (run {} ops).links.vals →
        r.tx = l.rx → r.rx = l.tx → l.isWireless = true → r.isWireless = true →
        (0 < l.capacity → 0 < r.capacity) → (l.sectors.isSome = true → r.sectors.isSome = true) →
        l.status = r.status →
        (Plan.redSolution ⟨run {} ops, p⟩ restr x).link l.id = 1 →
        (Plan.redSolution ⟨run {} ops, p⟩ restr x).link r.id = 1 := by
      intro l r hl hrm rtx rrx wl wr hcap hsec heq hs
      set P : Plan := ⟨run {} ops, p⟩ with hP
      have invP : P.t.Inv := inv
      obtain ⟨g1, g2, g3, g4, g5, g6⟩ := redCand_of (redLink_of hs)
      change P.inactiveArc (.site l.tx, .site l.rx) = false at g1
      change 0 < P.cap (.site l.tx, .site l.rx) at g2
      change P.redPolOk restr x l.tx l.rx = true at g3
      change P.redDec restr x l.tx = 1 at g4
      change P.redDec restr x l.rx = 1 at g5
      obtain ⟨a, b, hls, -⟩ := ((c1 l hl hs).2.2.2.2 wl).1
      have hrs := hsec (by rw [hls]; rfl)
      obtain ⟨⟨a', b'⟩, hrs⟩ := Option.isSome_iff_exists.1 hrs
      obtain ⟨⟨q, hq, eq1⟩, q', hq', eq2⟩ := ends r hrm a' b' hrs
      have el : P.linkOf (.site l.tx, .site l.rx) = some l := Plan.linkOf_arcOf invP hl
      have er : P.linkOf (.site r.tx, .site r.rx) = some r := Plan.linkOf_arcOf invP hrm
      have cl : P.cap (.site l.tx, .site l.rx) = l.capacity := Plan.cap_arcOf invP hl
      have cr : P.cap (.site r.tx, .site r.rx) = r.capacity := Plan.cap_arcOf invP hrm
      have s1 : P.txSector (.site r.tx, .site r.rx) = some a' := by
        unfold Plan.txSector; rw [er, Option.bind_some, hrs]; rfl
      have s2 : P.rxSector (.site r.tx, .site r.rx) = some b' := by
        unfold Plan.rxSector; rw [er, Option.bind_some, hrs]; rfl
      have hq0 : P.t.sectors.get? a' = some q := hq
      have hq1 : P.t.sectors.get? b' = some q' := hq'
      have d1 : P.redSector restr x r.tx a' = 1 := by
        unfold Plan.redSector
        rw [hq0, Option.any_some, eq1, beq_self_eq_true, if_pos rfl, rtx]; exact g5
      have d2 : P.redSector restr x r.rx b' = 1 := by
        unfold Plan.redSector
        rw [hq1, Option.any_some, eq2, beq_self_eq_true, if_pos rfl, rrx]; exact g4
      have ina : P.inactiveArc (.site r.tx, .site r.rx) = false := by
        unfold Plan.inactiveArc at g1 ⊢
        rw [el, Option.any_some, Bool.or_eq_false_iff] at g1
        rw [er, Option.any_some, ← heq, g1.1, hrs]
        simp
      have pol : P.redPolOk restr x r.tx r.rx = true := by
        unfold Plan.redPolOk Plan.inputActive Plan.isWired at g3 ⊢
        rw [el] at g3
        rw [er]
        simp only [Option.any_some, wl, wr, ← heq, rtx, rrx, Bool.or_eq_true, Bool.not_eq_true',
          bne_iff_ne, ne_eq] at g3 ⊢
        rcases g3 with (((g | g) | g) | g) | g
        · exact .inl (.inl (.inl (.inl g)))
        · exact .inl (.inl (.inl (.inr g)))
        · rw [el, Option.any_some, wl] at g; cases g
        · rw [Bool.and_comm] at g; exact .inl (.inr g)
        · exact .inr (fun c => g c.symm)
      have sel : P.redLink restr x r.tx r.rx = true := by
        unfold Plan.redLink Plan.redCand
        rw [ina, cr, pol, rtx, rrx, g4, g5, ← rtx, ← rrx, s1, s2, Option.any_some, Option.any_some,
          d1, d2]
        rw [cl] at g2
        simp [hcap g2]
      change (if P.arcs.contains (.site r.tx, .site r.rx) && P.redLink restr x r.tx r.rx then
        (1 : Int) else 0) = 1
      have hm : ((Loc.site r.tx, Loc.site r.rx) : Arc) ∈ P.arcs := Plan.arcOf_mem hrm
      rw [sel, List.contains_eq_mem, decide_eq_true hm]
      rfl
    have wl := radio l hl ⟨r, hr⟩ ho
    have wr := radio r hrm ⟨l, hl'⟩ (heq ▸ ho)
    exact ⟨key l r hl hrm rtx rrx wl wr m2.1 (by rw [m3]; exact id) heq,
      key r l hrm hl rrx.symm rtx.symm wr wl m2.2 (by rw [m3]; exact id) heq.symm⟩

/-- The hypotheses hold of the demo. -/
example :
    let P : Plan := ⟨run {} redDemo, redDemoParams⟩
    P.redErr none = none ∧ P.RedFeasible (RedParams.of .medium 2) none redDemoVars ∧
    updateWithSolution (P.redSolution none redDemoVars) P.t = some (redDemoResult, none) ∧
    Mirrored P.t ∧ OpenAreRadio P.t ∧ SectorsAtEnds P.t ∧ OldSitesConnected redDemoResult ∧
    redDemoResult.validateStatus = none := by
  have ends : SectorsAtEnds (run {} redDemo) := by
    have h : ∀ l ∈ (run {} redDemo).links.vals, ∀ q ∈ l.sectors,
        (∃ d ∈ (run {} redDemo).sectors.get? q.1, d.site = l.tx) ∧
        ∃ d ∈ (run {} redDemo).sectors.get? q.2, d.site = l.rx := by
      decide +kernel
    intro l hl a b hab
    exact h l hl (a, b) hab
  refine ⟨by decide +kernel, redDemo_feasible, by decide +kernel, by decide +kernel, ?_, ends, ?_,
    by decide +kernel⟩
  · have h : ∀ l ∈ (run {} redDemo).links.vals, l.isWireless = true := by decide +kernel
    exact fun l hl _ _ => h l hl
  · intro k d s hk hs he _
    have h : ∀ e ∈ redDemoResult.sites, e.2.status = .existing → e.2.siteType = .pop := by
      decide +kernel
    exact ⟨0, .pop hs (h _ (Dict.mem_of_get? _ hs) he) (by simpa using Or.inr he)⟩

end Verif
