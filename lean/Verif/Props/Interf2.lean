import Verif.Props.Interf

/-! # C53, C91–C94: capacities, traffic, guidelines and time in the interference phase -/

namespace Verif
open Topology Spec

namespace Plan
variable {P : Plan} {I : Interf} {x : IVars}

theorem site_live (inv : P.t.Inv) (feas : P.InterfFeasible I x) {s : SiteId}
    (hs : s ∈ P.t.sites.keys) : x.site s ≠ 0 ↔ Live P s := by
  rw [feas.site s hs, ← liveSite_iff inv.nd_sites s]
  split <;> simp [*]

theorem link_keys (inv : P.t.Inv) {l : Link} (hl : l ∈ P.t.links.vals) :
    l.tx ∈ P.t.sites.keys ∧ l.rx ∈ P.t.sites.keys := by
  have h : P.t.links.get? ⟨l.tx, l.rx⟩ = some l := linkOf_arcOf inv hl
  exact ⟨(Dict.mem_keys_iff _ _).2 (inv.link_tx _ _ h), (Dict.mem_keys_iff _ _).2 (inv.link_rx _ _ h)⟩

theorem mem_interferers (inv : P.t.Inv) (feas : P.InterfFeasible I x) {l : Link}
    (hl : l ∈ P.t.links.vals) {k1 k2 : SectorId} (hk : l.sectors = some (k1, k2)) (g : Arc) :
    g ∈ P.interferers I x.toVars l.tx l.rx k2 ↔
      ∃ f ∈ P.t.links.vals, Interferes P I l f ∧ g = arcOf f := by
  unfold interferers
  simp only [List.mem_flatMap, List.mem_filter, mem_incoming, mem_outgoing]
  constructor
  · rintro ⟨e, ⟨⟨he, hb⟩, hp⟩, ⟨hg, hge⟩, ho⟩
    unfold interfPath at hp
    simp only [Bool.and_eq_true, Bool.or_eq_true, beq_iff_eq] at hp
    obtain ⟨⟨⟨a1, a2⟩, a3⟩, a4⟩ := hp
    unfold interfOut at ho
    simp only [Bool.and_eq_true, beq_iff_eq] at ho
    obtain ⟨⟨o1, o2⟩, o3⟩ := ho
    obtain ⟨e, hl', rfl⟩ := hasActive_link he a1
    obtain ⟨f, hf, rfl⟩ := hasActive_link hg o1
    have n1 : f.tx = e.tx := by simpa [arcOf] using hge
    have n2 : e.rx = l.rx := by simpa [arcOf] using hb
    have a3' : x.site e.tx ≠ 0 ∧ e.tx ≠ l.tx := by simpa [arcOf] using a3
    have o3' : x.site f.rx ≠ 0 ∧ f.rx ≠ l.rx := by simpa [arcOf] using o3
    rw [(sectors_arcOf inv hf).1, (sectors_arcOf inv hl').1] at o2
    rw [(sectors_arcOf inv hl').2] at a2
    refine ⟨f, hf, ⟨(hasActive_arcOf inv hf).1 o1, n1 ▸ a3'.2, o3'.2,
      n1 ▸ (site_live inv feas (link_keys inv hl').1).1 a3'.1,
      (site_live inv feas (link_keys inv hf).2).1 o3'.1, e, hl',
      (hasActive_arcOf inv hl').1 a1, n1.symm, n2, o2.symm, ?_, ?_⟩, rfl⟩
    · rw [hk]
      exact a2
    · rintro ⟨c1, c2, c3⟩
      rw [Bool.not_eq_true', ← Bool.not_eq_true] at a4
      apply a4
      simp only [Bool.and_eq_true, beq_iff_eq, decide_eq_true_eq]
      exact ⟨⟨c1, c2⟩, c3⟩
  · rintro ⟨f, hf, ⟨f1, f2, f3, f4, f5, e, he, e1, e2, e3, e4, e5, e6⟩, rfl⟩
    refine ⟨arcOf e, ⟨⟨arcOf_mem he, by rw [← e3]; rfl⟩, ?_⟩,
      ⟨arcOf_mem hf, by unfold arcOf; rw [e2]⟩, ?_⟩
    · unfold interfPath
      simp only [Bool.and_eq_true, Bool.or_eq_true, beq_iff_eq]
      refine ⟨⟨⟨(hasActive_arcOf inv he).2 e1, ?_⟩, ?_⟩, ?_⟩
      · rw [(sectors_arcOf inv he).2]
        rw [hk] at e5
        exact e5
      · have := (site_live inv feas (link_keys inv he).1).2 (e2 ▸ f4)
        have h2 : e.tx ≠ l.tx := e2 ▸ f2
        simpa [arcOf] using ⟨this, h2⟩
      · rw [Bool.not_eq_true', ← Bool.not_eq_true]
        intro h
        simp only [Bool.and_eq_true, beq_iff_eq, decide_eq_true_eq] at h
        exact e6 ⟨h.1.1, h.1.2, h.2⟩
    · unfold interfOut
      simp only [Bool.and_eq_true, beq_iff_eq]
      refine ⟨⟨(hasActive_arcOf inv hf).2 f1, ?_⟩, ?_⟩
      · rw [(sectors_arcOf inv hf).1, (sectors_arcOf inv he).1]
        exact e4.symm
      · have := (site_live inv feas (link_keys inv hf).2).2 f5
        simpa [arcOf] using ⟨this, f3⟩

theorem interferers_nodup {x : Vars} {a b : SiteId} {k2 : SectorId} :
    (P.interferers I x a b k2).Nodup := by
  unfold interferers
  rw [List.nodup_flatMap]
  refine ⟨fun e _ => (arcs_nodup.filter _).filter _, ?_⟩
  have h : ((P.incoming (.site b)).filter (P.interfPath I x a b k2)).Nodup :=
    (arcs_nodup.filter _).filter _
  refine List.Pairwise.imp_of_mem ?_ h
  intro e f he hf hne g hg1 hg2
  apply hne
  have h1 := (mem_outgoing.1 (List.mem_filter.1 hg1).1).2
  have h2 := (mem_outgoing.1 (List.mem_filter.1 hg2).1).2
  have h3 := (mem_incoming.1 (List.mem_filter.1 he).1).2
  have h4 := (mem_incoming.1 (List.mem_filter.1 hf).1).2
  exact Prod.ext (h1.symm.trans h2) (h3.trans h4.symm)

open Classical in
theorem interferers_perm (inv : P.t.Inv) (feas : P.InterfFeasible I x) {l : Link}
    (hl : l ∈ P.t.links.vals) {k1 k2 : SectorId} (hk : l.sectors = some (k1, k2)) :
    (P.interferers I x.toVars l.tx l.rx k2).Perm
      ((P.t.links.vals.filter (fun f => Interferes P I l f)).map arcOf) := by
  rw [List.perm_ext_iff_of_nodup interferers_nodup]
  · intro g
    rw [mem_interferers inv feas hl hk]
    simp only [List.mem_map, List.mem_filter, decide_eq_true_eq]
    constructor
    · rintro ⟨f, h1, h2, rfl⟩; exact ⟨f, ⟨h1, h2⟩, rfl⟩
    · rintro ⟨f, ⟨h1, h2⟩, rfl⟩; exact ⟨f, h1, h2, rfl⟩
  · rw [List.nodup_map_iff_inj_on ((link_vals_nodup inv).filter _)]
    intro a ha b hb e
    exact arcOf_inj inv (List.mem_filter.1 ha).1 (List.mem_filter.1 hb).1 e

theorem sender_dist (inv : P.t.Inv) (send : SendersDist P) {l : Link} (hl : l ∈ P.t.links.vals) :
    P.isDist (.site l.tx) = true := by
  rw [isDist_iff]
  have := send l hl
  obtain ⟨y, hy⟩ := (Dict.mem_keys_iff _ _).1 (link_keys inv hl).1
  unfold typeAt at this ⊢
  rw [hy] at this ⊢
  cases h : y.siteType <;> simp [h] at this ⊢

/-- The interference expression of the model is the received power. -/
theorem interfExpr_eq (inv : P.t.Inv) (send : SendersDist P) (feas : P.InterfFeasible I x) {l : Link}
    (hl : l ∈ P.t.links.vals) (hr : Radio l) (h1 : Live P l.tx) (h2 : Live P l.rx)
    {k1 k2 : SectorId} (hk : l.sectors = some (k1, k2)) {c : Nat} (hc : c < I.channels) :
    P.interfExpr I x l.tx l.rx k2 c = interference P I x l c := by
  have hprod := (feas.exact l.tx l.rx (arcOf_mem hl) ((hasActive_arcOf inv hl).2 hr)
    ((site_live inv feas (link_keys inv hl).1).2 h1) ((site_live inv feas (link_keys inv hl).2).2 h2)
    k2 (by have := (sectors_arcOf inv hl).2; rw [hk] at this; exact this)).1
  unfold interfExpr interference
  rw [((interferers_perm inv feas hl hk).map _).sum_eq, List.map_map]
  congr 1
  apply List.map_congr_left
  intro f hf
  obtain ⟨hf1, hf2⟩ := List.mem_filter.1 hf
  have hf2 : Interferes P I l f := by simpa using hf2
  have e1 : (arcOf f).1 = Loc.site f.tx := rfl
  dsimp only [Function.comp_apply]
  rw [e1]
  cases hi : P.p.ignorePolarities with
  | true => simp
  | false =>
    have hm : (Loc.site f.tx, Loc.site f.rx) ∈ P.interferers I x.toVars l.tx l.rx k2 :=
      (mem_interferers inv feas hl hk _).2 ⟨f, hf1, hf2, rfl⟩
    obtain ⟨g1, g2, g3, g4, g5, g6, g7⟩ := hprod hi f.tx f.rx hm c hc
    have o1 := feas.bounds.odd hi _ (sender_dist inv send hf1)
    have o2 := feas.bounds.odd hi _ (sender_dist inv send hl)
    change 0 ≤ x.pol l.tx (arcOf f) c at g1
    change x.pol l.tx (arcOf f) c ≤ _ at g3
    change x.pol l.tx (arcOf f) c ≤ _ at g4
    change x.pol l.tx (arcOf f) c ≤ x.tdm (arcOf f) c at g5
    change x.tdm (arcOf f) c + _ + _ - 2 ≤ x.pol l.tx (arcOf f) c at g6
    change x.tdm (arcOf f) c - _ - _ ≤ x.pol l.tx (arcOf f) c at g7
    by_cases ho : x.odd f.tx = x.odd l.tx
    · have : x.pol l.tx (arcOf f) c = x.tdm (arcOf f) c := by
        rcases o2 with o2 | o2 <;> rw [ho, o2] at g6 g7 <;> linarith
      simp [ho, this]
    · have : x.pol l.tx (arcOf f) c = 0 := by
        rcases o1 with o1 | o1 <;> rcases o2 with o2 | o2 <;> rw [o1, o2] at ho g3 g4
        · exact absurd rfl ho
        · linarith
        · linarith
        · exact absurd rfl ho
      simp [ho, this]

theorem zeroRow_gbps (b : SiteId) : ((((classes I b)[zeroRow I b]?).map (·.2)).getD 0 : ℚ) = 0 := by
  unfold zeroRow
  cases h : (classes I b)[(classes I b).findIdx fun r => r.2 == 0]? with
  | none => rfl
  | some r =>
    obtain ⟨h1, h2⟩ := List.getElem?_eq_some_iff.1 h
    have := List.findIdx_getElem (w := h1)
    rw [h2] at this
    simpa using this

theorem zeroRow_lt (b : SiteId) : zeroRow I b < (classes I b).length := by
  unfold zeroRow
  rw [List.findIdx_lt_length]
  unfold classes
  split
  · rename_i h
    rw [List.any_eq_true] at h
    exact h
  · exact ⟨(0, 0), by simp, by simp⟩

/-- A class of positive capacity is a row of the table. -/
theorem class_mem {b : SiteId} {i : Nat}
    (h : ((((classes I b)[i]?).map (·.2)).getD 0 : ℚ) ≠ 0) :
    ∃ r ∈ I.mcs b, (classes I b)[i]? = some r := by
  cases hr : (classes I b)[i]? with
  | none => rw [hr] at h; exact absurd rfl h
  | some r =>
    refine ⟨r, ?_, rfl⟩
    have hm := List.mem_of_getElem? hr
    rw [hr] at h
    unfold classes at hm
    split at hm
    · exact hm
    · rcases List.mem_append.1 hm with hm | hm
      · exact hm
      · exfalso; apply h
        rw [List.mem_singleton] at hm
        rw [hm]; rfl

/-- Choosing at most one of `m` binary options. -/
theorem one_class {f : Nat → ℚ} {m : Nat} (h01 : ∀ i < m, f i = 0 ∨ f i = 1)
    (h1 : ((List.range m).map f).sum ≤ 1) {i : Nat} (hi : i < m) (hf : f i = 1) :
    ∀ j < m, j ≠ i → f j = 0 := by
  have h2 : (1 : ℚ) ≤ ((List.range m).map f).sum := by
    have := List.single_le_sum (l := (List.range m).map f) (by
      intro q hq
      obtain ⟨j, hj, rfl⟩ := List.mem_map.1 hq
      rcases h01 j (List.mem_range.1 hj) with h | h <;> rw [h] <;> norm_num) (f i)
      (List.mem_map.2 ⟨i, List.mem_range.2 hi, rfl⟩)
    rwa [hf] at this
  obtain ⟨c, hc, g1, g2⟩ := one_of_sum h01 (le_antisymm h1 h2)
  have : i = c := by
    by_contra hne
    have := g2 i hi hne
    rw [hf] at this; norm_num at this
  subst this
  exact g2

theorem sum_single {f : Nat → ℚ} {m i : Nat} (hi : i < m) (h : ∀ j < m, j ≠ i → f j = 0) :
    ((List.range m).map f).sum = f i := by
  have : (List.range m).map f = (List.range m).map (fun j => if j = i then f i else 0) := by
    apply List.map_congr_left
    intro j hj
    by_cases e : j = i
    · rw [e]; simp
    · rw [h j (List.mem_range.1 hj) e]; simp [e]
  rw [this]
  clear this h
  induction m with
  | zero => omega
  | succ m ih =>
    rw [List.range_succ, List.map_append, List.sum_append]
    by_cases e : i = m
    · subst e
      have : (List.range i).map (fun j => if j = i then f i else 0) = (List.range i).map (fun _ => (0 : ℚ)) := by
        apply List.map_congr_left
        intro j hj
        have := List.mem_range.1 hj
        rw [if_neg (by omega)]
      rw [this]
      simp
    · rw [ih (by omega)]
      have : ¬ m = i := fun h => e h.symm
      simp [this]

theorem one_minus_sum {α : Type} (f : α → ℚ) (L : List α) :
    (L.map fun a => 1 - f a).sum = (L.length : ℚ) - (L.map f).sum := by
  induction L with
  | nil => simp
  | cons a L ih => simp only [List.map_cons, List.sum_cons, ih, List.length_cons]; push_cast; ring

/-- The capacity of a link that carries traffic comes from one class on one channel. -/
theorem exact_class (inv : P.t.Inv) (feas : P.InterfFeasible I x) {l : Link}
    (hl : l ∈ P.t.links.vals) (hr : Radio l) (h1 : Live P l.tx) (h2 : Live P l.rx)
    {k1 k2 : SectorId} (hk : l.sectors = some (k1, k2)) (hf : 0 < x.flow (arcOf l)) :
    ∃ c < I.channels, ∃ r ∈ I.mcs l.rx, x.flow (arcOf l) ≤ r.2 ∧
      perRsl I (arcOf l) (P.interfExpr I x l.tx l.rx k2 c + I.noise l.rx) ≤ r.1 ∧
      ∀ d < I.channels, d ≠ c → x.tdm (arcOf l) d ≤ 0 := by
  obtain ⟨_, hcls, hzero, hflow⟩ := feas.exact l.tx l.rx (arcOf_mem hl)
    ((hasActive_arcOf inv hl).2 hr)
    ((site_live inv feas (link_keys inv hl).1).2 h1) ((site_live inv feas (link_keys inv hl).2).2 h2)
    k2 (by have := (sectors_arcOf inv hl).2; rw [hk] at this; exact this)
  change x.flow (arcOf l) ≤ _ at hflow
  change ∀ c < I.channels, (∀ i < _, x.cls (arcOf l) c i = 0 ∨ x.cls (arcOf l) c i = 1) ∧ _ at hcls
  set m := (classes I l.rx).length with hm
  set G : Nat → ℚ := fun i => (((classes I l.rx)[i]?).map (·.2)).getD 0 with hG
  -- a class of positive capacity is chosen on some channel
  obtain ⟨i, hi, c, hc, hone, hGi⟩ : ∃ i < m, ∃ c < I.channels, x.cls (arcOf l) c i = 1 ∧ G i ≠ 0 := by
    by_contra hcon
    push Not at hcon
    have : ((List.range m).map fun i => ((List.range I.channels).map fun c =>
        G i * x.cls (arcOf l) c i).sum).sum = 0 := by
      apply List.sum_eq_zero
      intro q hq
      obtain ⟨i, hi, rfl⟩ := List.mem_map.1 hq
      apply List.sum_eq_zero
      intro q hq
      obtain ⟨c, hc, rfl⟩ := List.mem_map.1 hq
      have hi := List.mem_range.1 hi
      have hc := List.mem_range.1 hc
      rcases (hcls c hc).1 i hi with h | h
      · rw [h, mul_zero]
      · rw [hcon i hi c hc h, zero_mul]
    have hflow' : x.flow (arcOf l) ≤ 0 := by
      rw [← this]; exact hflow
    linarith
  have hiz : i ≠ zeroRow I l.rx := by
    intro e
    apply hGi
    rw [e]
    exact zeroRow_gbps l.rx
  have hrow := one_class (hcls c hc).1 (hcls c hc).2.2.1 hi hone
  have hzm : zeroRow I l.rx < m := zeroRow_lt l.rx
  have hother : ∀ d < I.channels, d ≠ c → x.cls (arcOf l) d (zeroRow I l.rx) = 1 := by
    intro d hd hne
    have hn : 1 < I.channels := by omega
    have hz := hzero hn
    have := one_class (f := fun c => 1 - x.cls (arcOf l) c (zeroRow I l.rx)) (m := I.channels)
      (fun c hc => by
        rcases (hcls c hc).1 _ hzm with h | h <;> rw [h] <;> norm_num)
      (by
        have e : ((List.range I.channels).map fun c => 1 - x.cls (arcOf l) c (zeroRow I l.rx)).sum =
            (I.channels : ℚ) - ((List.range I.channels).map fun c =>
              x.cls (arcOf l) c (zeroRow I l.rx)).sum := by
          rw [one_minus_sum, List.length_range]
        rw [e]
        change (I.channels : ℚ) - 1 ≤ ((List.range I.channels).map fun c =>
          x.cls (arcOf l) c (zeroRow I l.rx)).sum at hz
        linarith)
      hc (by rw [hrow _ hzm (Ne.symm hiz), sub_zero]) d hd hne
    linarith
  have hval : ∀ d < I.channels, ∀ j < m, (d ≠ c ∨ j ≠ i) → G j * x.cls (arcOf l) d j = 0 := by
    intro d hd j hj h
    by_cases hdc : d = c
    · subst hdc
      rw [hrow j hj (by simpa using h), mul_zero]
    · by_cases hjz : j = zeroRow I l.rx
      · have : G j = 0 := by rw [hjz]; exact zeroRow_gbps l.rx
        rw [this, zero_mul]
      · rw [one_class (hcls d hd).1 (hcls d hd).2.2.1 hzm (hother d hd hdc) j hj hjz, mul_zero]
  obtain ⟨r, hr1, hr2⟩ := class_mem hGi
  have hGr : G i = r.2 := by
    rw [hG]; dsimp only; rw [hr2]; rfl
  refine ⟨c, hc, r, hr1, ?_, ?_, ?_⟩
  · rw [← hGr]
    refine hflow.trans (le_of_eq ?_)
    have := sum_single (f := fun i => ((List.range I.channels).map fun c =>
        G i * x.cls (arcOf l) c i).sum) hi (by
      intro j hj hne
      apply List.sum_eq_zero
      intro q hq
      obtain ⟨d, hd, rfl⟩ := List.mem_map.1 hq
      exact hval d (List.mem_range.1 hd) j hj (.inr hne))
    refine this.trans ?_
    have := sum_single (f := fun c => G i * x.cls (arcOf l) c i) hc (by
      intro d hd hne
      exact hval d hd i hi (.inl hne))
    refine this.trans ?_
    rw [hone, mul_one]
  · refine (hcls c hc).2.1.trans (le_of_eq ?_)
    have := sum_single (f := fun i => P.threshold I x l.tx l.rx k2 i * x.cls (arcOf l) c i) hi (by
      intro j hj hne
      rw [hrow j hj hne, mul_zero])
    refine this.trans ?_
    rw [hone, mul_one]
    unfold threshold
    rw [if_neg hiz, hr2]
    rfl
  · intro d hd hne
    have := (hcls d hd).2.2.2 (by omega)
    change x.tdm (arcOf l) d ≤ 1 - x.cls (arcOf l) d (zeroRow I l.rx) at this
    rw [hother d hd hne] at this
    linarith

/-- A radio link that carries traffic is chosen. -/
theorem flow_chosen (inv : P.t.Inv) (feas : P.InterfFeasible I x) (hn : 0 < I.channels)
    {l : Link} (hl : l ∈ P.t.links.vals) (hw : l.isWireless = true) (hf : 0 < x.flow (arcOf l)) :
    l ∈ chosen P x ∧ Radio l ∧ 0 < tdmSum I.channels x.toVars (arcOf l) := by
  have hm := arcOf_mem hl
  have htdm := (hasTdm_arcOf inv hl).trans hw
  have hsec : l.sectors.isSome = true := by
    by_contra hs
    have : P.inactiveArc (arcOf l) = true := by
      unfold inactiveArc
      rw [linkOf_arcOf inv hl]
      simp [hw, Option.not_isSome_iff_eq_none.1 hs]
    rw [feas.inactiveFlow _ hm this] at hf
    exact lt_irrefl _ hf
  have h1 := feas.tdmFlow _ hm
  rw [if_pos ⟨htdm, hn⟩] at h1
  have hpos : 0 ≤ tdmSum I.channels x.toVars (arcOf l) := by
    unfold tdmSum
    apply List.sum_nonneg
    intro q hq
    obtain ⟨c, hc, rfl⟩ := List.mem_map.1 hq
    exact (feas.bounds.tdm _ hm htdm c (List.mem_range.1 hc)).1
  have hcap : 0 < P.cap (arcOf l) := by
    by_contra hc
    push Not at hc
    nlinarith
  have hr : Radio l := ⟨hw, cap_arcOf inv hl ▸ hcap, hsec⟩
  have ha := (hasActive_arcOf inv hl).2 hr
  refine ⟨List.mem_filter.2 ⟨hl, ?_⟩, hr, ?_⟩
  · have h2 := feas.flowLink _ hm ha
    apply decide_eq_true
    refine ⟨hr, ?_⟩
    rcases feas.active _ hm ha with h | h
    · rw [h, mul_zero] at h2; linarith
    · exact h
  · rcases hpos.lt_or_eq with h | h
    · exact h
    · rw [← h, mul_zero] at h1; linarith

/-- Time on a sector, per channel. -/
theorem time_le (inv : P.t.Inv) (feas : P.InterfFeasible I x) {k : SectorId} {d : Sector}
    (hd : P.t.sectors.get? k = some d) {c : Nat} (hc : c < I.channels)
    (hs : P.hasSector I.channels k c = true) :
    ((sentBy P d.site k).map fun l => x.tdm (arcOf l) c).sum ≤ x.sector k c ∧
    ((heardBy P d.site k).map fun l => x.tdm (arcOf l) c).sum ≤ x.sector k c := by
  obtain ⟨y, hy⟩ := inv.sector_site _ _ hd
  have hkey : d.site ∈ P.t.sites.keys := (Dict.mem_keys_iff _ _).2 ⟨y, hy⟩
  obtain ⟨h1, h2⟩ := feas.tdmSector k d hd hkey c hc hs
  have hnn : 0 ≤ x.sector k c := by
    rcases feas.sector k c hc hs with h | h <;> rw [h] <;> norm_num
  constructor
  · by_cases h : P.txArcs d.site k = []
    · rw [sentBy_nil_of inv h]; simpa using hnn
    · have := h1 h
      rwa [txArcs_sum inv d.site k (fun e => x.tdm e c)] at this
  · by_cases h : P.rxArcs d.site k = []
    · rw [heardBy_nil_of inv h]; simpa using hnn
    · have := h2 h
      rwa [rxArcs_sum inv d.site k (fun e => x.tdm e c)] at this

theorem sum_swap {α β : Type} (f : α → β → ℚ) (L : List α) (M : List β) :
    (L.map fun a => (M.map fun b => f a b).sum).sum = (M.map fun b => (L.map fun a => f a b).sum).sum := by
  induction L with
  | nil => simp
  | cons a L ih =>
    simp only [List.map_cons, List.sum_cons, ih]
    rw [← List.sum_map_add]

end Plan

/-- **C53.** In every solution of the interference phase, a radio link that carries
traffic is chosen and works on one channel, on which its sender's sector is; one row
of the receiver's MCS table allows the traffic, and noise plus the power of the links
that disturb it on that channel stay within what that row tolerates. -/
theorem C53_sinr (ops : List Op) (p : OptParams) (I : Interf) (x : IVars)
    (feas : (Plan.mk (run {} ops) p).InterfFeasible I x)
    (known : SectorsKnown ⟨run {} ops, p⟩) (send : SendersDist ⟨run {} ops, p⟩)
    (hn : 0 < I.channels) :
    let P : Plan := ⟨run {} ops, p⟩
    ∀ l ∈ P.t.links.vals, l.isWireless = true → 0 < x.flow (arcOf l) →
      l ∈ chosen P x ∧ ∃ k1 k2, l.sectors = some (k1, k2) ∧
      ∃ c < I.channels, x.sector k1 c = 1 ∧ (∀ d < I.channels, d ≠ c → x.tdm (arcOf l) d = 0) ∧
      ∃ r ∈ I.mcs l.rx, x.flow (arcOf l) ≤ r.2 ∧
        (0 < I.rsl (arcOf l) →
          I.noise l.rx + interference P I x l c ≤ I.rsl (arcOf l) * r.1) := by
  intro P l hl hw hf
  have inv : P.t.Inv := Inv.empty.run ops
  obtain ⟨hch, hr, htp⟩ := Plan.flow_chosen inv feas hn hl hw hf
  refine ⟨hch, ?_⟩
  cases hk : l.sectors with
  | none => have := hr.2.2; rw [hk] at this; cases this
  | some q =>
    obtain ⟨k1, k2⟩ := q
    obtain ⟨live1, live2, _, _⟩ := C52_ends ops p I x feas known hn l hch k1 k2 hk
    obtain ⟨c, hc, r, hr1, hr2, hr3, hr4⟩ := Plan.exact_class inv feas hl hr live1 live2 hk hf
    have hm := Plan.arcOf_mem (P := P) hl
    have htdm := (Plan.hasTdm_arcOf inv hl).trans hw
    have hz : ∀ d < I.channels, d ≠ c → x.tdm (arcOf l) d = 0 := fun d hd hne =>
      le_antisymm (hr4 d hd hne) (feas.bounds.tdm _ hm htdm d hd).1
    have hcp : 0 < x.tdm (arcOf l) c := by
      have := Plan.sum_single (f := fun c => x.tdm (arcOf l) c) hc hz
      unfold Plan.tdmSum at htp
      rwa [this] at htp
    refine ⟨k1, k2, rfl, c, hc, ?_, hz, r, hr1, hr2, ?_⟩
    · obtain ⟨⟨d1, hd1, e1⟩, _⟩ := known.ends l hl k1 k2 hk
      have ht1 : d1.typ = .dn := by
        cases h : d1.typ with
        | dn => rfl
        | cn =>
          obtain ⟨y, hy, hiff⟩ := known.typed k1 d1 hd1
          exfalso
          apply send l hl
          unfold typeAt
          rw [← e1]
          exact congrArg (Option.map _) hy |>.trans (congrArg some (hiff.1 h))
      have hs := Plan.hasSector_dn hd1 ht1 hc
      have h1 := (Plan.time_le inv feas hd1 hc hs).1
      have h2 : x.tdm (arcOf l) c ≤ ((sentBy P d1.site k1).map fun l => x.tdm (arcOf l) c).sum := by
        apply List.single_le_sum
        · intro q hq
          obtain ⟨f, hf, rfl⟩ := List.mem_map.1 hq
          obtain ⟨hf1, hf2⟩ := List.mem_filter.1 hf
          exact (feas.bounds.tdm _ (Plan.arcOf_mem hf1)
            ((Plan.hasTdm_arcOf inv hf1).trans (of_decide_eq_true hf2).2.1) c hc).1
        · refine List.mem_map.2 ⟨l, List.mem_filter.2 ⟨hl, ?_⟩, rfl⟩
          simp [e1, hw, hk]
      rcases feas.sector k1 c hc hs with h | h
      · rw [h] at h1; linarith
      · exact h
    · intro hrsl
      rw [Plan.interfExpr_eq inv send feas hl hr live1 live2 hk hc] at hr3
      unfold Plan.perRsl at hr3
      rw [if_neg hrsl.ne', div_le_iff₀ hrsl] at hr3
      linarith

/-- In the example `D → C` carries 1 Gbps while `F → G` disturbs it a quarter of the
time; the noise and the disturbance leave room for the second row. -/
example : SectorsKnown ⟨run {} interfDemo, interfDemoParams⟩ ∧
    SendersDist ⟨run {} interfDemo, interfDemoParams⟩ ∧
    (∃ l ∈ (run {} interfDemo).links.vals, l.isWireless = true ∧ arcOf l = (.site "D", .site "C") ∧
      interfDemoVars.flow (arcOf l) = 1) ∧
    ((Plan.mk (run {} interfDemo) interfDemoParams).interferers interfDemoIn interfDemoVars.toVars
      "D" "C" ⟨"C", 0, 0, .cn⟩) = [(.site "F", .site "G")] := by
  refine ⟨interfDemo_known, ?_, ?_, by decide +kernel⟩
  · unfold SendersDist; decide +kernel
  · decide +kernel

/-- **C91, `_partial`.** A radio link that carries traffic joins live sites and is
chosen. Missing: wired links and links to demand, which may use sites that are not
built, see `C91_violation`. -/
theorem C91_radio_partial (ops : List Op) (p : OptParams) (I : Interf) (x : IVars)
    (feas : (Plan.mk (run {} ops) p).InterfFeasible I x)
    (known : SectorsKnown ⟨run {} ops, p⟩) (hn : 0 < I.channels) :
    let P : Plan := ⟨run {} ops, p⟩
    ∀ l ∈ P.t.links.vals, l.isWireless = true → 0 < x.flow (arcOf l) →
      l ∈ chosen P x ∧ Live P l.tx ∧ Live P l.rx := by
  intro P l hl hw hf
  have inv : P.t.Inv := Inv.empty.run ops
  obtain ⟨hch, hr, _⟩ := Plan.flow_chosen inv feas hn hl hw hf
  cases hk : l.sectors with
  | none => have := hr.2.2; rw [hk] at this; cases this
  | some q =>
    obtain ⟨h1, h2, _, _⟩ := C52_ends ops p I x feas known hn l hch q.1 q.2 hk
    exact ⟨hch, h1, h2⟩

/-- The example with a candidate POP `Q` joined to `D` by cable. -/
def interfCable : List Op := interfDemo ++ [
  .addSite { id := "Q", siteType := .pop, status := .candidate, lat := 5 } false,
  .addLink { tx := "Q", rx := "D", capacity := 4, isWireless := false },
  .addLink { tx := "D", rx := "Q", capacity := 4, isWireless := false }]

/-- **C91, violated.** A feasible solution of the interference phase in which traffic
enters at a POP that is only a candidate and is not built. -/
theorem C91_violation : ∃ (ops : List Op) (p : OptParams) (I : Interf) (x : IVars),
    (Plan.mk (run {} ops) p).setupErr = none ∧
    (Plan.mk (run {} ops) p).InterfFeasible I x ∧
    (run {} ops).siteStatus "Q" = some .candidate ∧ x.site "Q" = 0 ∧
      x.flow (.source, .site "Q") = 1 ∧ x.flow (.site "Q", .site "D") = 1 :=
  ⟨interfCable, interfDemoParams, interfDemoIn,
    { interfDemoVars with
      site := fun s => if s = "Q" then 0 else 1
      flow := fun e => if e = (.source, .site "P") then 1/2
        else if e = (.site "P", .site "D") then 0
        else if e = (.source, .site "Q") ∨ e = (.site "Q", .site "D") then 1
        else interfDemoVars.flow e },
    by decide +kernel, Plan.ICheck.sound (by decide +kernel),
    by decide +kernel, by decide +kernel, by decide +kernel, by decide +kernel⟩

end Verif
