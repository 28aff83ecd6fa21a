import Verif.Lemmas.Availability

/-! The main loop of the availability simulation. -/

namespace Verif

open Spec Relation

/-- The edges that work at time `x`: those of `G` without both directions of the links that are down. -/
def workingAt (G : Graph) (L : List GEdge) (O : GEdge → List (ℚ × ℚ)) (x : ℚ) (e : GEdge) : Prop :=
  G.edge e ∧ ∀ k ∈ L, DownAt (O k) x → e ≠ k ∧ e ≠ (k.2, k.1)

/-- What holds whenever the next event is taken. -/
structure SimInv (G : Graph) (L : List GEdge) (sim : ℚ) (O : GEdge → List (ℚ × ℚ)) (s : Graph.SimState)
    (rest : List Ev) : Prop where
  graph : ∀ e, s.graph.edge e ↔ G.edge e ∧ ∀ k ∈ s.missing, e ≠ k ∧ e ≠ (k.2, k.1)
  sup : s.graph.nodes.has .super = true
  nd : s.missing.Nodup
  sub : ∀ k ∈ s.missing, k ∈ L
  keys : ∀ k ∈ L, ∃ done todo, O k = done ++ todo ∧ (∀ x ∈ done, x.2 ≤ s.last) ∧
    (k ∉ s.missing ∧ rest.filter (fun e => e.key = some k) = linkEvents k todo ∨
     k ∈ s.missing ∧ ∃ f r todo', todo = (f, r) :: todo' ∧ f ≤ s.last ∧
       rest.filter (fun e => e.key = some k) = ⟨r, some k, .repaired⟩ :: linkEvents k todo')
  sorted : rest.Pairwise Ev.le
  later : ∀ e ∈ rest, s.last ≤ e.time
  fin : (⟨sim, none, .simEnd⟩ : Ev) ∈ rest
  known : ∀ e ∈ rest, e = ⟨sim, none, .simEnd⟩ ∨ (∃ k ∈ L, e.key = some k) ∧ e.kind ≠ .simEnd

/-- The links that can fail are edges in both directions, listed once in one of them. -/
structure FailLinks (G : Graph) (L : List GEdge) : Prop where
  edge : ∀ k ∈ L, G.edge k ∧ G.edge (k.2, k.1)
  ne : ∀ k ∈ L, k.1 ≠ k.2
  once : ∀ k ∈ L, (k.2, k.1) ∉ L

variable {G : Graph} {L : List GEdge} {sim : ℚ} {O : GEdge → List (ℚ × ℚ)} {s : Graph.SimState}

theorem SimInv.down_iff {rest : List Ev} (h : SimInv G L sim O s rest) (hO : ∀ k ∈ L, Ordered 0 (O k))
    {x : ℚ} (hx : s.last ≤ x) (hlt : ∀ e ∈ rest, x < e.time) {k : GEdge} (hk : k ∈ L) :
    DownAt (O k) x ↔ k ∈ s.missing := by
  obtain ⟨done, todo, h1, h2, h3⟩ := h.keys k hk
  have hmem : ∀ e ∈ rest.filter (fun e => e.key = some k), x < e.time :=
    fun e he => hlt e (List.mem_filter.1 he).1
  unfold DownAt
  rw [h1]
  rcases h3 with ⟨hm, hr⟩ | ⟨hm, f, r, todo', ht, hf, hr⟩
  · refine iff_of_false ?_ hm
    rintro ⟨o, ho, ho1, ho2⟩
    rcases List.mem_append.1 ho with ho | ho
    · have := h2 o ho; linarith
    · obtain ⟨⟨e, he, het⟩, _⟩ := linkEvents_of (k := k) ho
      have := hmem e (by rw [hr]; exact he)
      linarith
  · refine iff_of_true ?_ hm
    refine ⟨(f, r), by rw [ht]; simp, by dsimp only; linarith, ?_⟩
    exact hmem ⟨r, some k, .repaired⟩ (by rw [hr]; exact List.mem_cons_self)

theorem SimInv.edge_iff {rest : List Ev} (h : SimInv G L sim O s rest) (hO : ∀ k ∈ L, Ordered 0 (O k))
    {x : ℚ} (hx : s.last ≤ x) (hlt : ∀ e ∈ rest, x < e.time) (e : GEdge) :
    s.graph.edge e ↔ workingAt G L O x e := by
  rw [h.graph]
  unfold workingAt
  apply and_congr_right
  intro _
  constructor
  · intro hm k hk hd
    exact hm k ((h.down_iff hO hx hlt hk).1 hd)
  · intro hm k hk
    exact hm k (h.sub k hk) ((h.down_iff hO hx hlt (h.sub k hk)).2 hk)

/-- One event that is not the end: no exception, and the invariant for the rest. -/
theorem SimInv.step (hL : FailLinks G L) (hO : ∀ k ∈ L, Ordered 0 (O k)) {e : Ev} {rest : List Ev}
    (h : SimInv G L sim O s (e :: rest)) (he : e.kind ≠ .simEnd) (S : List GNode) :
    ∃ k s2, e.key = some k ∧ (s.advance sim e S).change k e.kind = .ok s2 ∧ s2.last = e.time ∧
      s2.demand = (s.advance sim e S).demand ∧ s2.link = (s.advance sim e S).link ∧
      SimInv G L sim O s2 rest := by
  have hs := List.pairwise_cons.1 h.sorted
  have hne : e ≠ ⟨sim, none, .simEnd⟩ := by rintro rfl; exact he rfl
  obtain ⟨⟨k, hk, hek⟩, -⟩ := (h.known e List.mem_cons_self).resolve_left hne
  have hlast := h.later e List.mem_cons_self
  have hlater : ∀ e' ∈ rest, e.time ≤ e'.time := fun e' he' => Ev.le_time (hs.1 e' he')
  have hfin : (⟨sim, none, .simEnd⟩ : Ev) ∈ rest := (List.mem_cons.1 h.fin).resolve_left (Ne.symm hne)
  have hknown : ∀ e' ∈ rest, e' = ⟨sim, none, .simEnd⟩ ∨ (∃ k ∈ L, e'.key = some k) ∧ e'.kind ≠ .simEnd :=
    fun e' he' => h.known e' (List.mem_cons_of_mem _ he')
  have hother : ∀ j ∈ L, j ≠ k → ∃ done todo, O j = done ++ todo ∧ (∀ x ∈ done, x.2 ≤ e.time) ∧
    (j ∉ s.missing ∧ rest.filter (fun e => e.key = some j) = linkEvents j todo ∨
     j ∈ s.missing ∧ ∃ f r todo', todo = (f, r) :: todo' ∧ f ≤ e.time ∧
       rest.filter (fun e => e.key = some j) = ⟨r, some j, .repaired⟩ :: linkEvents j todo') := by
    intro j hj hjk
    obtain ⟨done, todo, h1, h2, h3⟩ := h.keys j hj
    have : (e :: rest).filter (fun e => e.key = some j) = rest.filter (fun e => e.key = some j) := by
      apply List.filter_cons_of_neg
      rw [hek]
      simpa using fun c => hjk c.symm
    rw [this] at h3
    refine ⟨done, todo, h1, fun x hx => le_trans (h2 x hx) hlast, ?_⟩
    rcases h3 with h3 | ⟨h3, f, r, todo', h4, h5, h6⟩
    · exact Or.inl h3
    · exact Or.inr ⟨h3, f, r, todo', h4, le_trans h5 hlast, h6⟩
  obtain ⟨done, todo, h1, h2, h3⟩ := h.keys k hk
  have hcons : (e :: rest).filter (fun e => e.key = some k) = e :: rest.filter (fun e => e.key = some k) :=
    List.filter_cons_of_pos (by simpa using hek)
  rw [hcons] at h3
  have hkne := hL.ne k hk
  rcases h3 with ⟨hm, hr⟩ | ⟨hm, f, r, todo', ht, hf, hr⟩
  · -- a failure
    cases todo with
    | nil => simp [linkEvents] at hr
    | cons o todo =>
      obtain ⟨f, r⟩ := o
      simp only [linkEvents, List.cons.injEq] at hr
      obtain ⟨rfl, hr⟩ := hr
      have hkk : G.edge (k.1, k.2) ∧ G.edge (k.2, k.1) := hL.edge k hk
      have e1 : s.graph.edge (k.1, k.2) := by
        rw [h.graph]
        refine ⟨hkk.1, fun j hj => ⟨?_, ?_⟩⟩
        · rintro rfl; exact hm hj
        · intro c
          have : j = (k.2, k.1) := by
            simp only [Prod.mk.injEq] at c
            exact Prod.ext c.2.symm c.1.symm
          exact hL.once k hk (this ▸ h.sub j hj)
      have e2 : s.graph.edge (k.2, k.1) := by
        rw [h.graph]
        refine ⟨hkk.2, fun j hj => ⟨?_, ?_⟩⟩
        · rintro rfl; exact hL.once k hk (h.sub _ hj)
        · intro c
          have : j = k := by
            simp only [Prod.mk.injEq] at c
            exact Prod.ext c.2.symm c.1.symm
          exact hm (this ▸ hj)
      obtain ⟨H1, r1, n1, g1⟩ := Graph.removeEdge_ok e1
      have e2' : H1.edge (k.2, k.1) := (g1 _).2 ⟨e2, fun c => hkne (by
        simp only [Prod.mk.injEq] at c; exact c.2)⟩
      obtain ⟨H2, r2, n2, g2⟩ := Graph.removeEdge_ok e2'
      refine ⟨k, { (s.advance sim ⟨f, some k, .failed⟩ S) with graph := H2, missing := k :: s.missing },
        rfl, ?_, rfl, rfl, rfl, ?_⟩
      · unfold Graph.SimState.change
        dsimp only [Graph.SimState.advance]
        rw [r1]
        dsimp only
        rw [r2]
        dsimp only
        simp only [List.contains_iff_mem, hm, if_false]
      · refine ⟨?_, ?_, ?_, ?_, ?_, hs.2, hlater, hfin, hknown⟩
        · intro e
          dsimp only [Graph.SimState.advance]
          rw [g2, g1, h.graph]
          constructor
          · rintro ⟨⟨⟨a, b⟩, c⟩, d⟩
            refine ⟨a, fun j hj => ?_⟩
            rcases List.mem_cons.1 hj with rfl | hj
            · exact ⟨c, d⟩
            · exact b j hj
          · rintro ⟨a, b⟩
            exact ⟨⟨⟨a, fun j hj => b j (List.mem_cons_of_mem _ hj)⟩, (b k List.mem_cons_self).1⟩,
              (b k List.mem_cons_self).2⟩
        · dsimp only; rw [n2, n1]; exact h.sup
        · exact List.nodup_cons.2 ⟨hm, h.nd⟩
        · intro j hj
          rcases List.mem_cons.1 hj with rfl | hj
          · exact hk
          · exact h.sub j hj
        · intro j hj
          by_cases hjk : j = k
          · subst hjk
            refine ⟨done, (f, r) :: todo, h1, fun x hx => le_trans (h2 x hx) hlast, Or.inr
              ⟨List.mem_cons_self, f, r, todo, rfl, le_refl _, hr⟩⟩
          · obtain ⟨dn, td, q1, q2, q3⟩ := hother j hj hjk
            refine ⟨dn, td, q1, q2, ?_⟩
            rcases q3 with ⟨q3, q4⟩ | ⟨q3, q4⟩
            · refine Or.inl ⟨fun c => ?_, q4⟩
              rcases List.mem_cons.1 c with c | c
              · exact hjk c
              · exact q3 c
            · exact Or.inr ⟨List.mem_cons_of_mem _ q3, q4⟩
  · -- a repair
    simp only [List.cons.injEq] at hr
    obtain ⟨rfl, hr⟩ := hr
    have hkk : G.edge (k.1, k.2) ∧ G.edge (k.2, k.1) := hL.edge k hk
    refine ⟨k, { (s.advance sim ⟨r, some k, .repaired⟩ S) with
      graph := (s.graph.addEdge k.1 k.2 {}).addEdge k.2 k.1 {}, missing := s.missing.erase k },
      rfl, ?_, rfl, rfl, rfl, ?_⟩
    · unfold Graph.SimState.change
      dsimp only [Graph.SimState.advance]
      simp only [List.contains_iff_mem, hm, if_true]
    · refine ⟨?_, ?_, ?_, ?_, ?_, hs.2, hlater, hfin, hknown⟩
      · intro e
        dsimp only [Graph.SimState.advance]
        rw [Graph.addEdge_edge, Graph.addEdge_edge, h.graph]
        constructor
        · rintro ((⟨a, b⟩ | rfl) | rfl)
          · exact ⟨a, fun j hj => b j (List.mem_of_mem_erase hj)⟩
          · refine ⟨hkk.1, fun j hj => ?_⟩
            rw [h.nd.mem_erase_iff] at hj
            refine ⟨fun c => hj.1 c.symm, fun c => ?_⟩
            have : j = (k.2, k.1) := by
              simp only [Prod.mk.injEq] at c
              exact Prod.ext c.2.symm c.1.symm
            exact hL.once k hk (this ▸ h.sub j hj.2)
          · refine ⟨hkk.2, fun j hj => ?_⟩
            rw [h.nd.mem_erase_iff] at hj
            refine ⟨fun c => hL.once k hk (c ▸ h.sub j hj.2), fun c => ?_⟩
            simp only [Prod.mk.injEq] at c
            exact hj.1 (Prod.ext c.2.symm c.1.symm)
        · rintro ⟨a, b⟩
          by_cases c1 : e = (k.1, k.2)
          · exact Or.inl (Or.inr c1)
          by_cases c2 : e = (k.2, k.1)
          · exact Or.inr c2
          refine Or.inl (Or.inl ⟨a, fun j hj => ?_⟩)
          by_cases hjk : j = k
          · rw [hjk]; exact ⟨c1, c2⟩
          · exact b j ((h.nd.mem_erase_iff).2 ⟨hjk, hj⟩)
      · dsimp only
        rw [Graph.addEdge_has, Graph.addEdge_has]
        exact Or.inl (Or.inl h.sup)
      · exact h.nd.erase _
      · intro j hj
        exact h.sub j (List.mem_of_mem_erase hj)
      · intro j hj
        by_cases hjk : j = k
        · subst hjk
          refine ⟨done ++ [(f, r)], todo', by rw [h1, ht]; simp, ?_, Or.inl ⟨?_, hr⟩⟩
          · intro x hx
            rcases List.mem_append.1 hx with hx | hx
            · exact le_trans (h2 x hx) hlast
            · rw [List.mem_singleton] at hx
              rw [hx]; exact le_refl _
          · exact fun c => ((h.nd.mem_erase_iff).1 c).1 rfl
        · obtain ⟨dn, td, q1, q2, q3⟩ := hother j hj hjk
          refine ⟨dn, td, q1, q2, ?_⟩
          rcases q3 with ⟨q3, q4⟩ | ⟨q3, q4⟩
          · exact Or.inl ⟨fun c => q3 (List.mem_of_mem_erase c), q4⟩
          · exact Or.inr ⟨(h.nd.mem_erase_iff).2 ⟨hjk, q3⟩, q4⟩

/-- The demand node `d` is reached at time `x`. -/
def reachedAt (G : Graph) (L : List GEdge) (O : GEdge → List (ℚ × ℚ)) (d : GNode) (x : ℚ) : Prop :=
  Joined (workingAt G L O x) .super d

/-- The link `k` is up at time `x`. -/
def upAt (O : GEdge → List (ℚ × ℚ)) (k : GEdge) (x : ℚ) : Prop := ¬ DownAt (O k) x

open Classical in
/-- The time added for one event. -/
theorem SimInv.advance_eq (hO : ∀ k ∈ L, Ordered 0 (O k)) {e : Ev} {rest : List Ev}
    (h : SimInv G L sim O s (e :: rest)) (hd : ∀ x ∈ s.demand, x.1 ≠ GNode.super) (hl : ∀ x ∈ s.link, x.1 ∈ L) :
    (s.advance sim e ((s.graph.reach .super).filter (· ≠ .super))).demand =
      s.demand.map (fun x => (x.1, x.2 + (if reachedAt G L O x.1 s.last then e.time - s.last else 0) / sim)) ∧
    (s.advance sim e ((s.graph.reach .super).filter (· ≠ .super))).link =
      s.link.map (fun x => (x.1, x.2 + (if upAt O x.1 s.last then e.time - s.last else 0) / sim)) := by
  have hlast := h.later e List.mem_cons_self
  unfold Graph.SimState.advance
  dsimp only
  rcases lt_or_eq_of_le hlast with hlt | heq
  · have hall : ∀ e' ∈ e :: rest, s.last < e'.time := by
      intro e' he'
      rcases List.mem_cons.1 he' with rfl | he'
      · exact hlt
      · exact lt_of_lt_of_le hlt (Ev.le_time ((List.pairwise_cons.1 h.sorted).1 e' he'))
    constructor
    · apply List.map_congr_left
      intro x hx
      congr 1
      have : (((s.graph.reach .super).filter (· ≠ GNode.super)).contains x.1 = true) ↔
          reachedAt G L O x.1 s.last := by
        rw [List.contains_iff_mem, List.mem_filter, Graph.mem_reach,
          Graph.Joined.congr (h.edge_iff hO (le_refl _) hall)]
        simp only [decide_eq_true_eq]
        exact ⟨And.left, fun c => ⟨c, hd x hx⟩⟩
      by_cases c : reachedAt G L O x.1 s.last
      · rw [if_pos (this.2 c), if_pos c]
      · rw [if_neg (fun c' => c (this.1 c')), if_neg c]; simp
    · apply List.map_congr_left
      intro x hx
      congr 1
      have hdi := h.down_iff hO (le_refl _) hall (hl x hx)
      unfold upAt
      by_cases c : x.1 ∈ s.missing
      · rw [if_pos (by simpa using c), if_neg (fun c' => c' (hdi.2 c))]; simp
      · rw [if_neg (by simpa using c), if_pos (fun c' => c (hdi.1 c'))]
  · constructor
    · apply List.map_congr_left
      intro x _
      rw [heq]
      simp
    · apply List.map_congr_left
      intro x _
      rw [heq]
      simp

theorem simulate_step {late : Nat → Bool} {e : Ev} {rest : List Ev} {S : List GNode} {k : GEdge}
    {s2 : Graph.SimState} (h1 : ¬ sim < e.time) (h2 : s.graph.descendants = .ok S) (h3 : e.key = some k)
    (h4 : e.kind ≠ .simEnd) (h5 : (s.advance sim e S).change k e.kind = .ok s2) :
    Graph.simulate sim late s (e :: rest) =
      if late 0 then
        if e.time = 0 ∧ s2.demand ≠ [] then .error .zeroDivision
        else .ok { s2 with demand := s2.demand.map fun x => (x.1, x.2 * sim / e.time) }
      else Graph.simulate sim (fun n => late (n + 1)) s2 rest := by
  obtain ⟨time, key, kind⟩ := e
  dsimp only at h3 h4 h5
  subst h3
  conv_lhs => unfold Graph.simulate
  rw [if_neg h1, h2]
  cases kind with
  | simEnd => exact absurd rfl h4
  | failed => dsimp only; rw [h5]
  | repaired => dsimp only; rw [h5]

/-- What the loop computes. -/
theorem simulate_spec (hL : FailLinks G L) (hO : ∀ k ∈ L, Ordered 0 (O k)) (hsim : 0 < sim) (events : List Ev)
    (late : Nat → Bool) (s : Graph.SimState) (h : SimInv G L sim O s events)
    (hpos : ∀ e ∈ events, 0 < e.time)
    (hd : ∀ x ∈ s.demand, x.1 ≠ GNode.super) (hl : ∀ x ∈ s.link, x.1 ∈ L) :
    ∃ s' ts T, Graph.simulate sim late s events = .ok s' ∧ ts.Sublist (events.map (·.time)) ∧
      ts.getLast? = some T ∧ (∀ e ∈ events, e.time < T → e.time ∈ ts) ∧ 0 < T ∧ T ≤ sim ∧
      ((∀ n, late n = false) → T = sim) ∧
      s'.demand = s.demand.map (fun x => (x.1, (x.2 + upTime (reachedAt G L O x.1) s.last ts / sim) * (sim / T))) ∧
      s'.link = s.link.map (fun x => (x.1, x.2 + upTime (upAt O x.1) s.last ts / sim)) := by
  classical
  induction events generalizing late s with
  | nil => exact absurd h.fin (by simp)
  | cons e rest ih =>
    have hs := List.pairwise_cons.1 h.sorted
    have hle : e.time ≤ sim := by
      rcases List.mem_cons.1 h.fin with h' | h'
      · rw [← h']
      · exact Ev.le_time (hs.1 _ h')
    have hpe := hpos e List.mem_cons_self
    have hnl : ¬ sim < e.time := by linarith
    have hdes := Graph.descendants_ok h.sup
    obtain ⟨a1, a2⟩ := h.advance_eq hO hd hl
    by_cases hk : e.kind = .simEnd
    · have he : e = ⟨sim, none, .simEnd⟩ := by
        rcases h.known e List.mem_cons_self with h' | h'
        · exact h'
        · exact absurd hk h'.2
      subst he
      unfold Graph.simulate
      rw [if_neg hnl, hdes]
      dsimp only
      refine ⟨_, [sim], sim, rfl, by simp, rfl, ?_, hsim, le_refl _, fun _ => rfl, ?_, ?_⟩
      · intro e' he' hlt
        rcases List.mem_cons.1 he' with rfl | he'
        · simp
        · have := Ev.le_time (hs.1 e' he')
          dsimp only at this
          linarith
      · rw [a1]
        apply List.map_congr_left
        intro x _
        simp only [upTime, add_zero]
        rw [div_self (ne_of_gt hsim), mul_one]
      · rw [a2]
        apply List.map_congr_left
        intro x _
        simp only [upTime, add_zero]
    · obtain ⟨k, s2, hek, hch, hl2, hd2, hli2, inv2⟩ := h.step hL hO hk ((s.graph.reach .super).filter (· ≠ .super))
      rw [simulate_step hnl hdes hek hk hch]
      by_cases hlate : late 0 = true
      · rw [if_pos hlate, if_neg (fun c => absurd c.1 (ne_of_gt hpe))]
        refine ⟨_, [e.time], e.time, rfl, by simp, rfl, ?_, hpe, hle, ?_, ?_, ?_⟩
        · intro e' he' hlt
          rcases List.mem_cons.1 he' with rfl | he'
          · simp
          · have := Ev.le_time (hs.1 e' he')
            linarith
        · intro hn; rw [hn 0] at hlate; cases hlate
        · dsimp only
          rw [hd2, a1, List.map_map]
          apply List.map_congr_left
          intro x _
          simp only [upTime, add_zero, Function.comp]
          rw [mul_div_assoc]
        · dsimp only
          rw [hli2, a2]
          apply List.map_congr_left
          intro x _
          simp only [upTime, add_zero]
      · rw [if_neg hlate]
        obtain ⟨s', ts, T, r1, r2, r3, r4, r5, r6, r7, r8, r9⟩ := ih (fun n => late (n + 1)) s2 inv2
          (fun e' he' => hpos e' (List.mem_cons_of_mem _ he'))
          (by
            rw [hd2, a1]
            intro x hx
            obtain ⟨y, hy, rfl⟩ := List.mem_map.1 hx
            exact hd y hy)
          (by
            rw [hli2, a2]
            intro x hx
            obtain ⟨y, hy, rfl⟩ := List.mem_map.1 hx
            exact hl y hy)
        have hts : ts ≠ [] := by rintro rfl; simp at r3
        refine ⟨s', e.time :: ts, T, r1, by simpa using r2, ?_, ?_, r5, r6, fun hn => r7 (fun n => hn (n + 1)), ?_, ?_⟩
        · obtain ⟨t, ts', rfl⟩ := List.exists_cons_of_ne_nil hts
          rw [List.getLast?_cons_cons]; exact r3
        · intro e' he' hlt
          rcases List.mem_cons.1 he' with rfl | he'
          · simp
          · exact List.mem_cons_of_mem _ (r4 e' he' hlt)
        · rw [r8, hd2, a1, List.map_map]
          apply List.map_congr_left
          intro x _
          simp only [upTime, Function.comp, hl2]
          congr 1
          ring
        · rw [r9, hli2, a2, List.map_map]
          apply List.map_congr_left
          intro x _
          simp only [upTime, Function.comp, hl2]
          congr 1
          ring

end Verif
