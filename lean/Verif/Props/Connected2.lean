import Verif.Props.Connected
import Verif.Props.Phases

/-! # C90: demand sites counted as connectable can be served -/

namespace Verif
open Topology Spec

namespace Plan
variable {P : Plan} {adv : Arc → Bool} {x : Vars} {mark : Loc → ℚ}

theorem ite_intro {c a b : Prop} {inst : Decidable c} (h1 : c → a) (h2 : ¬c → b) :
    @ite Prop c inst a b := by
  cases inst with
  | isTrue h => exact h1 h
  | isFalse h => exact h2 h

theorem exists_small : ∀ D : List ℚ, ∃ δ : ℚ, 0 < δ ∧ δ ≤ 1 ∧ ∀ d ∈ D, 0 < d → δ ≤ d
  | [] => ⟨1, by norm_num, le_refl _, by simp⟩
  | a :: D => by
    obtain ⟨δ, h1, h2, h3⟩ := exists_small D
    by_cases c : 0 < a
    · refine ⟨min δ a, lt_min h1 c, (min_le_left _ _).trans h2, ?_⟩
      intro d hd hp
      rcases List.mem_cons.1 hd with rfl | hd
      · exact min_le_right _ _
      · exact (min_le_left _ _).trans (h3 d hd hp)
    · refine ⟨δ, h1, h2, ?_⟩
      intro d hd hp
      rcases List.mem_cons.1 hd with rfl | hd
      · exact absurd hp c
      · exact h3 d hd hp

theorem sum_le_length {f : Arc → ℚ} (hf : ∀ e, f e ≤ 1) : ∀ M : List Arc, (M.map f).sum ≤ M.length
  | [] => by simp
  | a :: M => by
    have := sum_le_length hf M
    have := hf a
    simp only [List.map_cons, List.sum_cons, List.length_cons]
    push_cast
    linarith

/-- A conserved flow leaves the source as it arrives at the demand locations. -/
theorem source_out (inv : P.t.Inv) (r : P.Ready) {f : Arc → ℚ}
    (h : ∀ s, P.inFlow f (.site s) = P.outFlow f (.site s)) :
    P.outFlow f .source = (P.demands.map (P.inFlow f)).sum := by
  have hc := cut_sum r (locations_nodup inv.nd_sites inv.nd_demand) f (fun _ => True)
  have h0 : (P.arcs.map (fun e => (if True then f e else 0) - (if True then f e else 0))).sum = 0 := by
    apply List.sum_eq_zero
    intro y hy
    obtain ⟨e, _, rfl⟩ := List.mem_map.1 hy
    simp
  rw [h0] at hc
  have hf : P.locations.filter (fun _ => decide True) = P.locations := by simp
  rw [hf] at hc
  unfold locations at hc
  simp only [List.map_cons, List.map_append, List.map_map, List.sum_cons, List.sum_append] at hc
  have h1 : (List.map ((fun l => P.inFlow f l - P.outFlow f l) ∘ Loc.site) P.t.sites.keys).sum = 0 := by
    apply List.sum_eq_zero
    intro y hy
    obtain ⟨s, _, rfl⟩ := List.mem_map.1 hy
    simp only [Function.comp_apply, h, sub_self]
  have h2 : P.demands.map (fun l => P.inFlow f l - P.outFlow f l) = P.demands.map (P.inFlow f) := by
    apply List.map_congr_left
    intro l hl
    obtain ⟨i, d, k, _, _, rfl⟩ := mem_demands.1 hl
    rw [outFlow_nil outgoing_demand, sub_zero]
  rw [h1, h2, inFlow_nil incoming_source] at hc
  linarith

theorem inFlow_mul (f : Arc → ℚ) (c : ℚ) (v : Loc) :
    P.inFlow (fun e => c * f e) v = c * P.inFlow f v := by
  have := inFlow_add (P := P) (fun _ => 0) f c v
  simp only [zero_add] at this
  rw [this]
  have : P.inFlow (fun _ => 0) v = 0 := by unfold inFlow; simp
  rw [this, zero_add]

theorem outFlow_mul (f : Arc → ℚ) (c : ℚ) (v : Loc) :
    P.outFlow (fun e => c * f e) v = c * P.outFlow f v := by
  have := outFlow_add (P := P) (fun _ => 0) f c v
  simp only [zero_add] at this
  rw [this]
  have : P.outFlow (fun _ => 0) v = 0 := by unfold outFlow; simp
  rw [this, zero_add]

theorem sub_sum (L : List Loc) (a b : Loc → ℚ) :
    (L.map (fun l => a l - b l)).sum = (L.map a).sum - (L.map b).sum := by
  induction L with
  | nil => simp
  | cons x L ih => simp only [List.map_cons, List.sum_cons, ih]; ring

theorem mul_sum (L : List Loc) (a : Loc → ℚ) (c : ℚ) :
    (L.map (fun l => c * a l)).sum = c * (L.map a).sum := by
  induction L with
  | nil => simp
  | cons x L ih => simp only [List.map_cons, List.sum_cons, ih]; ring

theorem served_together (inv : P.t.Inv) (r : P.Ready) (feas : P.ConnFeasible adv x mark)
    (single : ∀ a b, SamePlace P a b → a = b) (hpop : 0 < P.p.popCapacity)
    (hov : 0 < P.p.oversubscription) (hcap : ∃ l ∈ P.t.links.vals, 0 < l.capacity)
    (hcn : ∀ l ∈ P.t.links.vals, 0 ≤ l.capacity)
    (hdem : ∀ l ∈ P.demands, mark l = 1 → 0 < asked P l)
    (hadv : ∀ e, adv e = true → ∃ a b, e = (.site a, .site b)) :
    ∃ y, P.SiteFeasible adv y ∧ ∀ l ∈ P.demands, mark l = 1 → 0 < arriving P y.flow l := by
  classical
  let odd : SiteId → Bool := fun s => decide (x.odd s = 1)
  let S := P.demands.filter (fun l => mark l = 1)
  let R : Loc → Loc → Prop := fun a b => OpenArc P adv odd a b ∧ ∀ i k, b = .demand i k → b ∈ S
  let c : ℚ := 1 / (P.demands.length : ℚ)
  have hc : 0 ≤ c := by positivity
  obtain ⟨f, f1, f2, f3, f4⟩ := superpose (P := P) (R := R) (fun a b h => h.1.1) hc S (by
    intro l hl
    obtain ⟨hl1, hl2⟩ := List.mem_filter.1 hl
    obtain ⟨path, hp⟩ := connected_path inv r feas hl1 (of_decide_eq_true hl2)
    obtain ⟨q, id, k, h1, h2, h3⟩ := openPath_chain inv hp
    refine ⟨q, id, k, h1, h2, ?_⟩
    rw [← List.cons_append] at h3 ⊢
    rw [List.isChain_append] at h3 ⊢
    refine ⟨?_, by simp, ?_⟩
    · have := chain_and (Q := fun v => ∀ i k, v ≠ .demand i k) _ h3.1 (by
        intro a ha i k
        rcases List.mem_cons.1 ha with rfl | ha
        · simp
        · obtain ⟨s, _, rfl⟩ := List.mem_map.1 ha
          simp)
      exact this.imp (fun a b h => ⟨h.1, fun i k e => absurd e (h.2.2 i k)⟩)
    · intro a ha b hb
      refine ⟨h3.2.2 a ha b hb, ?_⟩
      intro i k e
      simp only [List.head?_cons, Option.mem_def, Option.some.injEq] at hb
      rw [← hb]; exact hl)
  have hn1 : (S.length : ℚ) * c ≤ 1 := by
    have h1 : S.length ≤ P.demands.length := List.length_filter_le _ _
    have h2 : (S.length : ℚ) ≤ P.demands.length := by exact_mod_cast h1
    by_cases h0 : (P.demands.length : ℚ) = 0
    · show _ * (1 / (P.demands.length : ℚ)) ≤ 1
      rw [h0]; norm_num
    · have hp : 0 < (P.demands.length : ℚ) := lt_of_le_of_ne (by positivity) (Ne.symm h0)
      show _ * (1 / (P.demands.length : ℚ)) ≤ 1
      rw [mul_one_div, div_le_one hp]; exact h2
  have g0 : ∀ e, 0 ≤ f e := fun e => (f1 e).1
  have g1 : ∀ e, f e ≤ 1 := fun e => (f1 e).2.trans hn1
  -- demands
  have dnn : ∀ l ∈ P.demands, 0 ≤ P.demandAt l := by
    intro l hl
    obtain ⟨i, d, k, hd, _, rfl⟩ := mem_demands.1 hl
    obtain ⟨q, hq, hq0, _⟩ := r.demand d (List.mem_map.2 ⟨_, hd, rfl⟩)
    rw [demandAt_of ((Dict.mem_iff_get? inv.nd_demand _ _).1 hd) hq]
    positivity
  have dpos : ∀ l ∈ S, 0 < P.demandAt l := by
    intro l hl
    obtain ⟨h1, h2⟩ := List.mem_filter.1 hl
    rw [← asked_eq h1]; exact hdem l h1 (of_decide_eq_true h2)
  have mtn : 0 ≤ P.maxThroughput := by
    apply List.sum_nonneg
    intro y hy
    obtain ⟨l, hl, rfl⟩ := List.mem_map.1 hy
    exact dnn l hl
  have mtp : S ≠ [] → 0 < P.maxThroughput := by
    intro hne
    obtain ⟨l, hl⟩ := List.exists_mem_of_ne_nil _ hne
    refine lt_of_lt_of_le (dpos l hl) ?_
    apply List.single_le_sum
    · intro y hy
      obtain ⟨m, hm, rfl⟩ := List.mem_map.1 hy
      exact dnn m hm
    · exact List.mem_map.2 ⟨l, (List.mem_filter.1 hl).1, rfl⟩
  have fS : ∀ e, f e ≠ 0 → S ≠ [] := by
    intro e he h
    have := (f1 e).2
    rw [h] at this
    simp only [List.length_nil, Nat.cast_zero, zero_mul] at this
    exact he (le_antisymm this (g0 e))
  have mlc : 0 < P.maxLinkCap := by
    obtain ⟨l, hl, hl0⟩ := hcap
    unfold maxLinkCap
    rw [if_neg (by rintro h; rw [h] at hl; cases hl)]
    exact lt_of_lt_of_le hl0 (le_listMax (List.mem_map.2 ⟨l, hl, rfl⟩))
  let N : ℚ := (P.arcs.length : ℚ) + 1
  have hN : 1 ≤ N := by show 1 ≤ (P.arcs.length : ℚ) + 1; have : (0 : ℚ) ≤ P.arcs.length := by positivity
                        linarith
  have hN0 : 0 < N := by linarith
  obtain ⟨δ, δ0, δ1, hδ⟩ := exists_small
    ([P.p.popCapacity / N, P.maxThroughput / N, P.maxLinkCap] ++ P.t.links.vals.map (fun l => l.capacity / N) ++
      P.demands.map (fun l => P.demandAt l / N))
  have mulN : ∀ B, 0 < B → B / N ∈ ([P.p.popCapacity / N, P.maxThroughput / N, P.maxLinkCap] ++
      P.t.links.vals.map (fun l => l.capacity / N) ++ P.demands.map (fun l => P.demandAt l / N)) →
      ∀ X, 0 ≤ X → X ≤ N → δ * X ≤ B := by
    intro B hB hm X hX0 hXN
    have h1 := hδ _ hm (by positivity)
    have h2 : δ * N ≤ B := by rwa [le_div_iff₀ hN0] at h1
    nlinarith
  have sumN : ∀ M : List Arc, M.Sublist P.arcs → 0 ≤ (M.map f).sum ∧ (M.map f).sum ≤ N := by
    intro M hM
    refine ⟨?_, ?_⟩
    · apply List.sum_nonneg
      intro y hy
      obtain ⟨e, _, rfl⟩ := List.mem_map.1 hy
      exact g0 e
    · have h1 := sum_le_length g1 M
      have h2 : (M.length : ℚ) ≤ P.arcs.length := by exact_mod_cast hM.length_le
      show _ ≤ (P.arcs.length : ℚ) + 1
      linarith
  have link_of : ∀ a b, (Loc.site a, Loc.site b) ∈ P.arcs → ∃ l ∈ P.t.links.vals, l.tx = a ∧ l.rx = b ∧
      P.linkOf (.site a, .site b) = some l := by
    intro a b h
    rcases mem_arcs.1 h with ⟨_, _, _, _, h⟩ | ⟨_, _, _, _, _, _, _, h⟩ | ⟨l, hl, h⟩
    · cases h
    · cases h
    · injection h with h1 h2
      injection h1 with h1; injection h2 with h2
      subst h1 h2
      exact ⟨l, hl, rfl, rfl, linkOf_arcOf inv hl⟩
  have arc_open : ∀ l ∈ P.t.links.vals, f (arcOf l) ≠ 0 → 0 < l.capacity ∧ adv (arcOf l) = false ∧
      l.status.inactive = false ∧ (l.isWireless = true → l.sectors.isSome = true) ∧
      (P.p.ignorePolarities = false → l.isWireless = true → l.status.active = false →
        ∀ x y, P.t.sites.get? l.tx = some x → P.t.sites.get? l.rx = some y → x.siteType ≠ .cn →
          y.siteType ≠ .cn → odd l.tx ≠ odd l.rx) := by
    intro l hl hne
    obtain ⟨l', m1, m2, m3, m4⟩ := (f4 _ hne).1.2.2 l.tx l.rx rfl rfl
    have : l' = l := arcOf_inj inv m1 hl (by unfold arcOf; rw [m2, m3])
    subst this
    exact m4
  have site_open : ∀ e s, f e ≠ 0 → (e.1 = .site s ∨ e.2 = .site s) → P.isInactive s = false := by
    intro e s hne hs
    obtain ⟨y, hy, hi, _⟩ := (f4 e hne).1.2.1 s hs
    unfold isInactive statusOf siteStatus
    rw [hy]; simpa using hi
  have dem_zero : ∀ i k, Loc.demand i k ∉ S → P.inFlow f (.demand i k) = 0 := by
    intro i k h
    apply List.sum_eq_zero
    intro y hy
    obtain ⟨e, he, rfl⟩ := List.mem_map.1 hy
    by_contra hne
    have h2 := (mem_incoming.1 he).2
    have h3 := (f4 e hne).2 i k h2
    rw [h2] at h3
    exact h h3
  let y : Vars := ⟨fun s => if P.isInactive s then 0 else 1,
    fun k _ => match P.t.sectors.get? k with
      | some d => if P.isInactive d.site then 0 else 1
      | none => 0,
    fun e => δ * f e, fun e _ => f e / N, x.odd, fun l => P.demandAt l - δ * P.inFlow f l⟩
  have ysite : ∀ s, y.site s = if P.isInactive s then 0 else 1 := fun _ => rfl
  have tdm01 : ∀ e, 0 ≤ f e / N ∧ f e / N ≤ 1 := by
    intro e
    refine ⟨div_nonneg (g0 e) hN0.le, ?_⟩
    rw [div_le_one hN0]; exact (g1 e).trans hN
  have shareSum : ∀ (M : List Arc) (s : SiteId), M.Sublist P.arcs → (∀ e ∈ M, e.1 = .site s ∨ e.2 = .site s) →
      (M.map (fun e => f e / N)).sum ≤ if P.isInactive s then 0 else 1 := by
    intro M s hM hs
    have hz : (M.map (fun e => f e / N)).sum = (M.map f).sum / N := by
      clear hM hs
      induction M with
      | nil => simp
      | cons a M ih => simp only [List.map_cons, List.sum_cons, ih]; ring
    rw [hz]
    split
    · rename_i hi
      have : (M.map f).sum = 0 := by
        apply List.sum_eq_zero
        intro z hz
        obtain ⟨e, he, rfl⟩ := List.mem_map.1 hz
        by_contra hne
        rw [site_open e s hne (hs e he)] at hi
        cases hi
      rw [this]; simp
    · rw [div_le_one hN0]; exact (sumN M hM).2
  refine ⟨y, ?_, ?_⟩
  · refine ⟨⟨?_, ?_, ?_, ?_, ?_⟩, ?_, ?_, ?_, ?_, ?_, ?_, ?_, ?_, ?_, ?_, ?_, ?_⟩
    · intro s _
      rw [ysite]; split <;> simp
    · intro e _; exact mul_nonneg δ0.le (g0 e)
    · intro e _ _ _ _; exact tdm01 e
    · exact feas.odd
    · intro l hl
      show 0 ≤ P.demandAt l - δ * P.inFlow f l ∧ P.demandAt l - δ * P.inFlow f l ≤ P.demandAt l
      have hi := inFlow_nonneg (P := P) g0 l
      refine ⟨?_, by nlinarith⟩
      by_cases hS : l ∈ S
      · have := mulN (P.demandAt l) (dpos l hS) (by
          apply List.mem_append_right
          exact List.mem_map.2 ⟨l, hl, rfl⟩) (P.inFlow f l) hi (sumN _ List.filter_sublist).2
        linarith
      · obtain ⟨i, d, k, _, _, rfl⟩ := mem_demands.1 hl
        rw [dem_zero i k hS]
        have := dnn _ hl
        linarith
    · intro k d hk
      show (match P.t.sectors.get? k with
        | some d => if P.isInactive d.site then (0 : ℚ) else 1
        | none => 0) = _
      rw [hk]
    · intro locs hl hlen
      exfalso
      match locs, hl, hlen with
      | [], _, h => simp at h
      | [_], _, h => simp at h
      | a :: b :: t, hl, _ =>
        obtain ⟨xa, hxa, hmem⟩ := group_mem inv.nd_sites hl (by simp : a ∈ a :: b :: t)
        obtain ⟨xb, hxb, hp⟩ := (hmem b).1 (by simp)
        have hab := single a b ((samePlace_iff hxa hxb).2 hp)
        obtain ⟨locs', _, h1, h2, h3⟩ := group_of inv.nd_sites hxa
        have hnd : (a :: b :: t).Nodup := by
          have e : ∀ L ∈ P.t.colocated.vals, L.Nodup := by
            intro L hL
            by_cases hLe : L = []
            · rw [hLe]; simp
            obtain ⟨h1, h2, h3, _⟩ := group_fold (fun p : SiteId × Site => p.2.point) Prod.fst P.t.sites []
              Dict.nodupKeys_nil
            change P.t.colocated.NodupKeys at h1
            change ∀ k, (P.t.colocated.get? k).getD [] = _ at h2
            obtain ⟨⟨k, locs'⟩, hm, rfl⟩ := List.mem_map.1 hL
            have hk := (Dict.mem_iff_get? h1 _ _).1 hm
            have e := h2 k
            rw [hk] at e
            simp only [Option.getD_some, Dict.get?_nil, Option.getD_none, List.nil_append] at e
            dsimp only
            rw [e]
            exact List.Nodup.sublist (List.Sublist.map _ List.filter_sublist) inv.nd_sites
          exact e _ hl
        rw [hab] at hnd
        simp at hnd
    · intro e he
      show if P.hasTdm e = true ∧ 0 < 1 then δ * f e ≤ P.cap e * tdmSum 1 y e else
        δ * f e ≤ min (P.cap e) P.maxThroughput
      have ht : tdmSum 1 y e = f e / N := by simp [tdmSum, y]
      rw [ht]
      have small : ∀ B, 0 < B → B / N ∈ ([P.p.popCapacity / N, P.maxThroughput / N, P.maxLinkCap] ++
          P.t.links.vals.map (fun l => l.capacity / N) ++ P.demands.map (fun l => P.demandAt l / N)) →
          δ * f e ≤ B := fun B h1 h2 => mulN B h1 h2 _ (g0 e) ((g1 e).trans hN)
      have mt : δ * f e ≤ P.maxThroughput := by
        by_cases hz : f e = 0
        · rw [hz, mul_zero]; exact mtn
        · exact small _ (mtp (fS e hz)) (by simp)
      rcases mem_arcs.1 he with ⟨s, z, _, _, rfl⟩ | ⟨i, d, k, s, _, _, _, rfl⟩ | ⟨l, hl, rfl⟩
      · rw [if_neg (by simp [hasTdm, real]), cap_source he]
        exact le_min (small _ hpop (by simp)) mt
      · rw [if_neg (by simp [hasTdm, real]), cap_demand he]
        refine le_min ?_ mt
        have h1 := hδ P.maxLinkCap (by simp) mlc
        have := g1 (Loc.site s, Loc.demand i k)
        have := g0 (Loc.site s, Loc.demand i k)
        nlinarith
      · change if P.hasTdm (arcOf l) = true ∧ 0 < 1 then δ * f (arcOf l) ≤ P.cap (arcOf l) * (f (arcOf l) / N)
          else δ * f (arcOf l) ≤ min (P.cap (arcOf l)) P.maxThroughput
        have hcp : P.cap (arcOf l) = l.capacity := cap_arcOf inv hl
        rw [hcp]
        by_cases hz : f (arcOf l) = 0
        · rw [hz]
          refine ite_intro (fun _ => by simp) (fun _ => ?_)
          · rw [mul_zero]
            exact le_min (hcn l hl) mtn
        · have hcp := (arc_open l hl hz).1
          have h1 := hδ (l.capacity / N) (by
            apply List.mem_append_left
            apply List.mem_append_right
            exact List.mem_map.2 ⟨l, hl, rfl⟩) (by positivity)
          refine ite_intro (fun _ => ?_) (fun _ => ?_)
          · have h2 := mul_le_mul_of_nonneg_right h1 (g0 (arcOf l))
            calc δ * f (arcOf l) ≤ l.capacity / N * f (arcOf l) := h2
              _ = l.capacity * (f (arcOf l) / N) := by ring
          · refine le_min (small _ hcp ?_) mt
            apply List.mem_append_left
            apply List.mem_append_right
            exact List.mem_map.2 ⟨l, hl, rfl⟩
    · intro k d hk hs ch hch hh
      have hsec : y.sector k ch = if P.isInactive d.site then 0 else 1 := by
        show (match P.t.sectors.get? k with
          | some d => if P.isInactive d.site then (0 : ℚ) else 1
          | none => 0) = _
        rw [hk]
      rw [hsec]
      constructor
      · intro _
        refine shareSum _ d.site (List.filter_sublist.trans List.filter_sublist) ?_
        intro e he
        exact Or.inl (mem_outgoing.1 (List.mem_filter.1 he).1).2
      · intro _
        refine shareSum _ d.site (List.filter_sublist.trans List.filter_sublist) ?_
        intro e he
        exact Or.inr (mem_incoming.1 (List.mem_filter.1 he).1).2
    · intro s _ _ _
      show P.outFlow (fun e => δ * f e) (.site s) ≤ _
      rw [outFlow_mul]
      exact mulN _ hpop (by simp) _ (sumN _ List.filter_sublist).1 (sumN _ List.filter_sublist).2
    · intro v hv _
      show P.inFlow (fun e => δ * f e) v - P.outFlow (fun e => δ * f e) v = _
      rw [inFlow_mul, outFlow_mul]
      rcases mem_locations.1 hv with rfl | ⟨s, hs, rfl⟩ | hd
      · rw [inFlow_nil incoming_source, source_out inv r f2]
        show _ = -P.maxThroughput + (P.demands.map (fun l => P.demandAt l - δ * P.inFlow f l)).sum
        rw [sub_sum, mul_sum]
        unfold maxThroughput
        ring
      · rw [f2]
        show _ = (0 : ℚ)
        ring
      · obtain ⟨i, d, k, _, _, rfl⟩ := mem_demands.1 hd
        rw [outFlow_nil outgoing_demand]
        show _ = P.demandAt (.demand i k) - (P.demandAt (.demand i k) - δ * P.inFlow f (.demand i k))
        ring
    · intro v hv
      have key : ∀ M : List Arc, M.Sublist P.arcs → (∀ e ∈ M, e.1 = v ∨ e.2 = v) →
          δ * (M.map f).sum ≤ P.maxThroughput * siteVar y v := by
        intro M hM hMv
        by_cases hz : (M.map f).sum = 0
        · rw [hz, mul_zero]
          refine mul_nonneg mtn ?_
          cases v with
          | source => exact zero_le_one
          | demand i k => exact zero_le_one
          | site s =>
            show 0 ≤ if P.isInactive s then (0 : ℚ) else 1
            split <;> norm_num
        · have ⟨e, he, hne⟩ : ∃ e ∈ M, f e ≠ 0 := by
            by_contra hcon
            push Not at hcon
            apply hz
            apply List.sum_eq_zero
            intro z hz
            obtain ⟨e, he, rfl⟩ := List.mem_map.1 hz
            exact hcon e he
          have h1 : siteVar y v = 1 := by
            cases v with
            | source => rfl
            | demand i k => rfl
            | site s =>
              show (if P.isInactive s then (0 : ℚ) else 1) = 1
              rw [site_open e s hne (hMv e he)]; rfl
          rw [h1, mul_one]
          exact mulN _ (mtp (fS e hne)) (by simp) _ (sumN M hM).1 (sumN M hM).2
      refine ⟨fun _ => ?_, fun _ => ?_⟩
      · show P.inFlow (fun e => δ * f e) v ≤ _
        rw [inFlow_mul]
        exact key _ List.filter_sublist (fun e he => Or.inr (mem_incoming.1 he).2)
      · show P.outFlow (fun e => δ * f e) v ≤ _
        rw [outFlow_mul]
        exact key _ List.filter_sublist (fun e he => Or.inl (mem_outgoing.1 he).2)
    · intro e he ha
      show δ * f e = 0
      have : f e = 0 := by
        by_contra hne
        obtain ⟨a, b, rfl⟩ := hadv e ha
        obtain ⟨l, hl, rfl, rfl, _⟩ := link_of a b he
        have := (arc_open l hl hne).2.1
        unfold arcOf at this
        rw [ha] at this; cases this
      rw [this, mul_zero]
    · intro hp a b hab hia hwi ha hb
      have ht : tdmSum 1 y (.site a, .site b) = f (.site a, .site b) / N := by simp [tdmSum, y]
      rw [ht]
      show _ ≤ x.odd a + x.odd b ∧ _ ≤ 2 - x.odd a - x.odd b
      have t01 := tdm01 (.site a, .site b)
      have o1 := feas.odd hp a ha
      have o2 := feas.odd hp b hb
      by_cases hz : f (.site a, .site b) = 0
      · rw [hz, zero_div]
        rcases o1 with o1 | o1 <;> rcases o2 with o2 | o2 <;> rw [o1, o2] <;> norm_num
      · obtain ⟨l, hl, rfl, rfl, hlk⟩ := link_of a b hab
        have h5 := (arc_open l hl hz).2.2.2.2
        have hw : l.isWireless = true := by
          change ((P.linkOf (.site l.tx, .site l.rx)).any fun l => !l.isWireless) = false at hwi
          rw [hlk] at hwi
          simpa using hwi
        have hst : l.status.active = false := by
          unfold inputActive at hia
          rw [hlk] at hia
          simpa using hia
        obtain ⟨ya, hya, hyt⟩ := dist_site ha
        obtain ⟨yb, hyb, hyt'⟩ := dist_site hb
        have := h5 hp hw hst ya yb hya hyb hyt hyt'
        rcases o1 with o1 | o1 <;> rcases o2 with o2 | o2 <;> rw [o1, o2] <;>
          first
          | (constructor <;> linarith [t01.2])
          | (exfalso; apply this; simp only [odd, o1, o2])
    · intro s hs
      simp only [ysite]
      split
      · intro h _; rw [h]; rfl
      · split
        · rename_i _ hac
          intro _
          have : P.isInactive s = false := by
            unfold isActive at hac
            unfold isInactive
            cases h : P.statusOf s with
            | none => rfl
            | some st =>
              rw [h] at hac
              cases st <;> first | rfl | exact absurd hac (by decide)
          rw [this]; rfl
        · intro h; rw [h]; rfl
    · exact feas.activePolarity
    · intro e he hin
      show δ * f e = 0
      have : f e = 0 := by
        by_contra hne
        unfold inactiveArc at hin
        cases hlk : P.linkOf e with
        | none => rw [hlk] at hin; cases hin
        | some l =>
          rw [hlk] at hin
          rcases mem_arcs.1 he with ⟨s, z, _, _, rfl⟩ | ⟨i, d, k, s, _, _, _, rfl⟩ | ⟨l', hl, rfl⟩
          · cases hlk
          · cases hlk
          · have hlk' := linkOf_arcOf inv hl
            unfold arcOf at hlk'
            rw [hlk'] at hlk
            injection hlk with hlk
            subst hlk
            obtain ⟨_, _, h3, h4, _⟩ := arc_open l' hl hne
            simp only [Option.any_some, Bool.or_eq_true, Bool.and_eq_true] at hin
            rcases hin with hin | ⟨hw, hn⟩
            · rw [h3] at hin; cases hin
            · have := h4 hw
              cases hsec : l'.sectors with
              | none => rw [hsec] at this; cases this
              | some _ => rw [hsec] at hn; cases hn
      rw [this, mul_zero]
  · intro l hl hm
    show 0 < P.inFlow (fun e => δ * f e) l
    rw [inFlow_mul]
    have hS : l ∈ S := List.mem_filter.2 ⟨hl, decide_eq_true hm⟩
    have h1 := f3 l hS
    have hp : 0 < (P.demands.length : ℚ) := by exact_mod_cast List.length_pos_of_mem hl
    have : 0 < c := by show 0 < 1 / (P.demands.length : ℚ); positivity
    exact mul_pos δ0 (lt_of_lt_of_le this h1)

end Plan

/-- **C90, partial.** When no two sites share a place, a positive common bandwidth for
all demand locations counted as connectable is feasible in the planning problem.
Missing: places with several sites, where it is false, see the violations below. -/
theorem C90_common_bandwidth_partial (ops : List Op) (p : OptParams) (adv : Arc → Bool) (x : Vars)
    (mark : Loc → ℚ) (ok : (Plan.mk (run {} ops) p).setupErr = none)
    (hadv : ∀ e, adv e = true → ∃ a b, e = (.site a, .site b))
    (feas : (Plan.mk (run {} ops) p).ConnFeasible adv x mark)
    (single : ∀ a b, SamePlace ⟨run {} ops, p⟩ a b → a = b)
    (hpop : 0 < p.popCapacity) (hov : 0 < p.oversubscription)
    (hcap : ∃ l ∈ (run {} ops).links.vals, 0 < l.capacity)
    (hcn : ∀ l ∈ (run {} ops).links.vals, 0 ≤ l.capacity)
    (hdem : ∀ l ∈ (Plan.mk (run {} ops) p).demands, mark l = 1 → 0 < asked ⟨run {} ops, p⟩ l) :
    let P : Plan := ⟨run {} ops, p⟩
    ∃ b y, 0 < b ∧ P.SiteFeasible adv y ∧
      P.CommonBandwidth (P.demands.filter (fun l => mark l = 1)) b y := by
  intro P
  have inv : P.t.Inv := Inv.empty.run ops
  have r := Plan.ready ok
  obtain ⟨y, hy, hpos⟩ := Plan.served_together inv r feas single hpop hov hcap hcn hdem hadv
  obtain ⟨b, b0, _, hb⟩ := Plan.exists_small (P.demands.map (arriving P y.flow))
  have key : ∀ l ∈ P.demands, mark l = 1 → b ≤ P.demandAt l - y.shortage l := by
    intro l hl hm
    rw [← Plan.arriving_demand inv r hy.bounds.shortage hy.flowBalance hl]
    exact hb _ (List.mem_map.2 ⟨l, hl, rfl⟩) (hpos l hl hm)
  refine ⟨b, y, b0, hy, b0.le, ?_, ?_⟩
  · intro l hl
    obtain ⟨h1, h2⟩ := List.mem_filter.1 hl
    have := key l h1 (of_decide_eq_true h2)
    have := (hy.bounds.shortage l h1).1
    linarith
  · intro l _ hl
    obtain ⟨h1, h2⟩ := List.mem_filter.1 hl
    exact key l h1 (of_decide_eq_true h2)

/-- A candidate DN `D` at the place of a candidate POP `Q`; `D` is the only way from the
existing POP `P` to the demand site. -/
def shadowDemo : List Op := [
  .addSite { id := "P", siteType := .pop, status := .existing } false,
  .addSite { id := "D", siteType := .dn, status := .candidate, lat := 1 } false,
  .addSite { id := "Q", siteType := .pop, status := .candidate, lat := 1 } false,
  .addSector { site := "P", node := 0, pos := 0 },
  .addSector { site := "D", node := 0, pos := 0 },
  .addLink { tx := "P", rx := "D", capacity := 5,
             sectors := some (⟨"P", 0, 0, .dn⟩, ⟨"D", 0, 0, .dn⟩) },
  .addLink { tx := "D", rx := "P", capacity := 5,
             sectors := some (⟨"D", 0, 0, .dn⟩, ⟨"P", 0, 0, .dn⟩) },
  .addDemandSite { id := "a", connected := ["D"], demand := some 1 }]

/-- Two candidate DNs `D` and `E` at one place, each the only way to a demand site. -/
def rivalDemo : List Op := [
  .addSite { id := "P", siteType := .pop, status := .existing } false,
  .addSite { id := "D", siteType := .dn, status := .candidate, lat := 1 } false,
  .addSite { id := "E", siteType := .dn, status := .candidate, lat := 1 } false,
  .addSector { site := "P", node := 0, pos := 0 },
  .addSector { site := "D", node := 0, pos := 0 },
  .addSector { site := "E", node := 0, pos := 0 },
  .addLink { tx := "P", rx := "D", capacity := 5,
             sectors := some (⟨"P", 0, 0, .dn⟩, ⟨"D", 0, 0, .dn⟩) },
  .addLink { tx := "D", rx := "P", capacity := 5,
             sectors := some (⟨"D", 0, 0, .dn⟩, ⟨"P", 0, 0, .dn⟩) },
  .addLink { tx := "P", rx := "E", capacity := 5,
             sectors := some (⟨"P", 0, 0, .dn⟩, ⟨"E", 0, 0, .dn⟩) },
  .addLink { tx := "E", rx := "P", capacity := 5,
             sectors := some (⟨"E", 0, 0, .dn⟩, ⟨"P", 0, 0, .dn⟩) },
  .addDemandSite { id := "a", connected := ["D"], demand := some 1 },
  .addDemandSite { id := "b", connected := ["E"], demand := some 1, lat := 1 }]

theorem two_hop (ops : List Op) (d : SiteId) (i : DemandId)
    (h1 : ∃ l ∈ (run {} ops).links.vals, l.tx = "P" ∧ l.rx = d ∧ 0 < l.capacity ∧
      l.status.inactive = false ∧ l.sectors.isSome = true)
    (hd : d ≠ "P")
    (h2 : (run {} ops).sites.keys.contains d = true ∧ (run {} ops).sites.keys.contains "P" = true ∧
      (Plan.mk (run {} ops) connParams).usableSite d = true ∧
      (Plan.mk (run {} ops) connParams).usableSite "P" = true)
    (h3 : ∃ x, (run {} ops).sites.get? "P" = some x ∧ x.siteType = .pop)
    (h4 : ∃ z, (run {} ops).demandSites.get? i = some z ∧ 0 < z.numSites ∧ d ∈ z.connected) :
    OpenPath ⟨run {} ops, connParams⟩ (fun _ => false) (fun s => s == "P") ["P", d] (.demand i 0) := by
  have inv := Inv.empty.run ops
  obtain ⟨l, m1, m2, m3, m4, m5, m6⟩ := h1
  obtain ⟨z, z1, z2, z3⟩ := h4
  obtain ⟨w, w1, w2⟩ := h3
  refine ⟨⟨"P", w, rfl, w1, w2⟩, ?_, ?_, ⟨d, i, z, 0, rfl, z1, z2, z3, rfl⟩⟩
  · refine List.isChain_cons_cons.2 ⟨⟨l, m1, m2, m3, m4, rfl, m5, fun _ => m6, ?_⟩, by simp⟩
    intro _ _ _ _ _ _ _ _ _ h
    dsimp only at h
    rw [beq_self_eq_true] at h
    exact hd (eq_of_beq h.symm)
  · intro s hs
    have hk : s ∈ (run {} ops).sites.keys := by
      rcases List.mem_cons.1 hs with rfl | hs
      · simpa using h2.2.1
      · rw [List.mem_singleton] at hs; subst hs; simpa using h2.1
    rw [← Plan.usableSite_iff (P := ⟨run {} ops, connParams⟩) inv.nd_sites hk]
    rcases List.mem_cons.1 hs with rfl | hs
    · exact h2.2.2.2
    · rw [List.mem_singleton] at hs; subst hs; exact h2.2.2.1

theorem unserved {P : Plan} {adv : Arc → Bool} {y : Vars} (feas : P.SiteFeasible adv y) {d : SiteId}
    {i : DemandId} (hi : P.incoming (.demand i 0) = [(.site d, .demand i 0)])
    (hd : Loc.site d ∈ P.locations) (h0 : y.site d = 0) : arriving P y.flow (.demand i 0) = 0 := by
  have he : (Loc.site d, Loc.demand i 0) ∈ P.arcs :=
    (Plan.mem_incoming.1 (by rw [hi]; simp : _ ∈ P.incoming (.demand i 0))).1
  have ho : (Loc.site d, Loc.demand i 0) ∈ P.outgoing (.site d) := Plan.mem_outgoing.2 ⟨he, rfl⟩
  have h1 := (feas.flowSite _ hd).2 (List.ne_nil_of_mem ho)
  have h2 := Plan.flow_le_outFlow feas.bounds.flow he
  have h3 := feas.bounds.flow _ he
  have h4 : Plan.siteVar y (.site d) = 0 := h0
  rw [h4, mul_zero] at h1
  show P.inFlow y.flow _ = 0
  unfold Plan.inFlow
  rw [hi]
  simp only [List.map_cons, List.map_nil, List.sum_cons, List.sum_nil, add_zero]
  exact le_antisymm (h2.trans h1) h3

/-- **C90, violation.** A best solution of the connectable demand problem may count a
demand site that no solution of the planning problem serves: the candidate POP at the
place of its only serving site is always active, which `_get_ignore_sites` does not
take into account. -/
theorem C90_always_active_pop_violation :
    ∃ (ops : List Op) (p : OptParams) (x : Vars) (mark : Loc → ℚ) (l : Loc),
      let P : Plan := ⟨run {} ops, p⟩
      P.setupErr = none ∧ P.ConnFeasible (fun _ => false) x mark ∧
      (∀ x' mark', P.ConnFeasible (fun _ => false) x' mark' →
        (P.demands.map mark').sum ≤ (P.demands.map mark).sum) ∧
      l ∈ P.demands ∧ mark l = 1 ∧ 0 < asked P l ∧
      ∀ y, P.SiteFeasible (fun _ => false) y → arriving P y.flow l = 0 := by
  let P : Plan := ⟨run {} shadowDemo, connParams⟩
  obtain ⟨x, mark, h1, _, h2⟩ := Plan.all_connected (P := P) (adv := fun _ => false)
    (Inv.empty.run shadowDemo) (fun _ h => by cases h) (fun s => s == "P") (by
      intro _ l hl hst
      exfalso
      have : ∀ l ∈ P.t.links.vals, l.status.active = false := by decide +kernel
      rw [this l hl] at hst
      cases hst)
  have hd : P.demands = [.demand "a" 0] := by decide +kernel
  have hm : mark (.demand "a" 0) = 1 := (h2 _ (by rw [hd]; simp)).2 ⟨_, two_hop shadowDemo "D" "a"
    (by decide +kernel) (by decide) (by decide +kernel) ⟨_, rfl, rfl⟩ ⟨_, rfl, by decide, by decide⟩⟩
  refine ⟨shadowDemo, connParams, x, mark, .demand "a" 0, by decide +kernel, h1, ?_, by decide +kernel, hm,
    by decide +kernel, ?_⟩
  · intro x' mark' f'
    change (P.demands.map mark').sum ≤ (P.demands.map mark).sum
    have := f'.binary (.demand "a" 0) (by decide +kernel)
    rw [hd]
    simp only [List.map_cons, List.map_nil, List.sum_cons, List.sum_nil, add_zero, hm]
    rcases this with h | h <;> rw [h]; norm_num
  · intro y hy
    refine unserved hy (d := "D") (by decide +kernel) (by decide +kernel) ?_
    have hc := hy.colocated ["D", "Q"] (by decide +kernel) (by decide)
    rw [if_neg (by decide +kernel)] at hc
    have hi : P.invalidSites (P.maxType (["D", "Q"].filter P.forcedSite)) ["D", "Q"] = ["D"] := by
      decide +kernel
    have := hc.2
    change ((P.invalidSites (P.maxType (["D", "Q"].filter P.forcedSite)) ["D", "Q"]).map y.site).sum = 0 at this
    rw [hi] at this
    simpa using this

/-- **C90, violation.** Two demand sites may both be counted in a best solution of the
connectable demand problem although no solution of the planning problem serves both:
their only serving sites share a place. The common bandwidth is then 0. -/
theorem C90_shared_place_violation :
    ∃ (ops : List Op) (p : OptParams) (x : Vars) (mark : Loc → ℚ),
      let P : Plan := ⟨run {} ops, p⟩
      P.setupErr = none ∧ P.ConnFeasible (fun _ => false) x mark ∧
      (∀ x' mark', P.ConnFeasible (fun _ => false) x' mark' →
        (P.demands.map mark').sum ≤ (P.demands.map mark).sum) ∧
      (∀ l ∈ P.demands, mark l = 1 ∧ 0 < asked P l) ∧
      ∀ y b, P.SiteFeasible (fun _ => false) y →
        P.CommonBandwidth (P.demands.filter (fun l => mark l = 1)) b y → b = 0 := by
  let P : Plan := ⟨run {} rivalDemo, connParams⟩
  have inv : P.t.Inv := Inv.empty.run rivalDemo
  obtain ⟨x, mark, h1, _, h2⟩ := Plan.all_connected (P := P) (adv := fun _ => false)
    inv (fun _ h => by cases h) (fun s => s == "P") (by
      intro _ l hl hst
      exfalso
      have : ∀ l ∈ P.t.links.vals, l.status.active = false := by decide +kernel
      rw [this l hl] at hst
      cases hst)
  have hd : P.demands = [.demand "a" 0, .demand "b" 0] := by decide +kernel
  have ha : mark (.demand "a" 0) = 1 := (h2 _ (by rw [hd]; simp)).2 ⟨_, two_hop rivalDemo "D" "a"
    (by decide +kernel) (by decide) (by decide +kernel) ⟨_, rfl, rfl⟩ ⟨_, rfl, by decide, by decide⟩⟩
  have hb : mark (.demand "b" 0) = 1 := (h2 _ (by rw [hd]; simp)).2 ⟨_, two_hop rivalDemo "E" "b"
    (by decide +kernel) (by decide) (by decide +kernel) ⟨_, rfl, rfl⟩ ⟨_, rfl, by decide, by decide⟩⟩
  have ok : P.setupErr = none := by decide +kernel
  have hask : ∀ l ∈ P.demands, 0 < asked P l := by decide +kernel
  refine ⟨rivalDemo, connParams, x, mark, ok, h1, ?_, ?_, ?_⟩
  · intro x' mark' f'
    change (P.demands.map mark').sum ≤ (P.demands.map mark).sum
    have h3 := f'.binary (.demand "a" 0) (by decide +kernel)
    have h4 := f'.binary (.demand "b" 0) (by decide +kernel)
    rw [hd]
    simp only [List.map_cons, List.map_nil, List.sum_cons, List.sum_nil, add_zero, ha, hb]
    rcases h3 with h | h <;> rcases h4 with h' | h' <;> rw [h, h'] <;> norm_num
  · intro l hl
    refine ⟨?_, hask l hl⟩
    change l ∈ P.demands at hl
    rw [hd] at hl
    rcases List.mem_cons.1 hl with rfl | hl
    · exact ha
    · rw [List.mem_singleton.1 hl]; exact hb
  · intro y b hy hcb
    have hc := hy.colocated ["D", "E"] (by decide +kernel) (by decide)
    rw [if_pos (by decide +kernel)] at hc
    simp only [List.map_cons, List.map_nil, List.sum_cons, List.sum_nil, add_zero] at hc
    have b1 := hy.bounds.site "D" (by decide +kernel)
    have b2 := hy.bounds.site "E" (by decide +kernel)
    have fin : ∀ d i, P.incoming (.demand i 0) = [(.site d, .demand i 0)] → Loc.site d ∈ P.locations →
        y.site d = 0 → Loc.demand i 0 ∈ P.demands → mark (.demand i 0) = 1 → b = 0 := by
      intro d i k1 k2 k3 k4 k5
      have e1 := unserved hy k1 k2 k3
      rw [Plan.arriving_demand inv (Plan.ready ok) hy.bounds.shortage hy.flowBalance k4] at e1
      have e2 := hcb.2.2 (.demand i 0) (Plan.mem_locations.2 (Or.inr (Or.inr k4)))
        (List.mem_filter.2 ⟨k4, decide_eq_true k5⟩)
      have := hcb.1
      change b ≤ P.demandAt (.demand i 0) - y.shortage (.demand i 0) at e2
      linarith
    have hz : y.site "D" = 0 ∨ y.site "E" = 0 := by
      rcases b1 with h | h
      · exact Or.inl h
      · rcases b2 with h' | h'
        · exact Or.inr h'
        · rw [h, h'] at hc; norm_num at hc
    rcases hz with h | h
    · exact fin "D" "a" (by decide +kernel) (by decide +kernel) h (by decide +kernel) ha
    · exact fin "E" "b" (by decide +kernel) (by decide +kernel) h (by decide +kernel) hb

/-- The hypotheses of C90 on the demo network of C89. -/
example :
    let P : Plan := ⟨run {} connDemo, connParams⟩
    P.setupErr = none ∧ (∃ x mark, P.ConnFeasible (fun _ => false) x mark ∧
      mark (.demand "a" 0) = 1) ∧ (∀ a b, SamePlace P a b → a = b) ∧ 0 < connParams.popCapacity ∧
      0 < connParams.oversubscription ∧ (∃ l ∈ P.t.links.vals, 0 < l.capacity) ∧
      (∀ l ∈ P.t.links.vals, 0 ≤ l.capacity) ∧ ∀ l ∈ P.demands, 0 < asked P l := by
  intro P
  refine ⟨by decide +kernel, ?_, ?_, by decide +kernel, by decide +kernel, by decide +kernel,
    by decide +kernel, by decide +kernel⟩
  · obtain ⟨x, mark, h1, _, h2⟩ := Plan.all_connected (P := P) (adv := fun _ => false)
      (Inv.empty.run connDemo) (fun _ h => by cases h) (fun s => s == "D") (by
        intro _ l hl hst
        exfalso
        have : ∀ l ∈ P.t.links.vals, l.status.active = false := by decide +kernel
        rw [this l hl] at hst
        cases hst)
    have hd : P.demands = [.demand "a" 0] := by decide +kernel
    exact ⟨x, mark, h1, (h2 _ (by rw [hd]; simp)).2 ⟨_, connDemo_path⟩⟩
  · have key : ∀ p ∈ P.t.sites, ∀ q ∈ P.t.sites, p.2.lat = q.2.lat → p.1 = q.1 := by decide +kernel
    rintro a b ⟨xa, xb, ga, gb, _, e1, _⟩
    exact key _ (Dict.mem_of_get? _ ga) _ (Dict.mem_of_get? _ gb) e1

end Verif
