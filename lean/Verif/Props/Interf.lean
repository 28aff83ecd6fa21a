import Verif.Spec.Interf
import Verif.Props.Connected
import Verif.Lemmas.InterfCheck

/-! # C52, C48: links, sectors and limits in the interference phase -/

namespace Verif
open Topology Spec

namespace Plan
variable {P : Plan} {I : Interf} {x : IVars}

theorem bin_sum {α : Type} (f : α → ℚ) : ∀ L : List α, (∀ a ∈ L, f a = 0 ∨ f a = 1) →
    (L.map f).sum = ((L.filter (fun a => f a = 1)).length : ℚ)
  | [], _ => by simp
  | a :: L, h => by
    have ih := bin_sum f L (fun l hl => h l (List.mem_cons_of_mem _ hl))
    rcases h a (by simp) with e | e
    · have : ¬ f a = 1 := by rw [e]; norm_num
      rw [List.map_cons, List.sum_cons, ih, List.filter_cons_of_neg (by simpa using this), e, zero_add]
    · rw [List.map_cons, List.sum_cons, ih, List.filter_cons_of_pos (by simpa using e), e,
        List.length_cons]
      push_cast; ring

theorem hasActive_arcOf (inv : P.t.Inv) {l : Link} (hl : l ∈ P.t.links.vals) :
    P.hasActive (arcOf l) = true ↔ Radio l := by
  unfold hasActive Radio
  rw [hasTdm_arcOf inv hl, cap_arcOf inv hl, linkOf_arcOf inv hl]
  simp [and_assoc]

theorem sectors_arcOf (inv : P.t.Inv) {l : Link} (hl : l ∈ P.t.links.vals) :
    P.txSector (arcOf l) = l.sectors.map (·.1) ∧ P.rxSector (arcOf l) = l.sectors.map (·.2) := by
  unfold txSector rxSector
  rw [linkOf_arcOf inv hl]
  exact ⟨rfl, rfl⟩

theorem hasActive_link {e : Arc} (he : e ∈ P.arcs) (h : P.hasActive e = true) :
    ∃ l ∈ P.t.links.vals, e = arcOf l := by
  rcases mem_arcs.1 he with ⟨s, z, _, _, rfl⟩ | ⟨i, d, k, s, _, _, _, rfl⟩ | ⟨l, hl, rfl⟩
  · simp [hasActive, hasTdm, real] at h
  · simp [hasActive, hasTdm, real] at h
  · exact ⟨l, hl, rfl⟩

/-- Decided arcs are decided links. -/
theorem arcs_perm (inv : P.t.Inv) (Q : Arc → Bool) :
    (P.arcs.filter (fun e => P.hasActive e && Q e)).Perm
      ((P.t.links.vals.filter (fun l => Radio l ∧ Q (arcOf l) = true)).map arcOf) := by
  rw [List.perm_ext_iff_of_nodup (arcs_nodup.filter _)]
  · intro e
    simp only [List.mem_filter, List.mem_map, Bool.and_eq_true, decide_eq_true_eq]
    constructor
    · rintro ⟨h1, h2, h3⟩
      obtain ⟨l, hl, rfl⟩ := hasActive_link h1 h2
      exact ⟨l, ⟨hl, (hasActive_arcOf inv hl).1 h2, h3⟩, rfl⟩
    · rintro ⟨l, ⟨hl, h2, h3⟩, rfl⟩
      exact ⟨arcOf_mem hl, (hasActive_arcOf inv hl).2 h2, h3⟩
  · rw [List.nodup_map_iff_inj_on ((link_vals_nodup inv).filter _)]
    intro a ha b hb e
    exact arcOf_inj inv (List.mem_filter.1 ha).1 (List.mem_filter.1 hb).1 e

/-- The number of chosen links with a property, as a sum of variables. -/
theorem chosen_count (inv : P.t.Inv)
    (h01 : ∀ e ∈ P.arcs, P.hasActive e = true → x.active e = 0 ∨ x.active e = 1) (Q : Arc → Bool) :
    ((P.arcs.filter (fun e => P.hasActive e && Q e)).map x.active).sum =
      (((chosen P x).filter (fun l => Q (arcOf l))).length : ℚ) := by
  rw [((arcs_perm inv Q).map x.active).sum_eq, List.map_map, bin_sum]
  · congr 2
    unfold chosen
    rw [List.filter_filter, List.filter_filter]
    apply List.filter_congr
    intro l _
    simp only [Function.comp_apply]
    by_cases h1 : Radio l <;> by_cases h2 : x.active (arcOf l) = 1 <;> simp [h1, h2]
  · intro l hl
    obtain ⟨h1, h2⟩ := List.mem_filter.1 hl
    exact h01 _ (arcOf_mem h1) ((hasActive_arcOf inv h1).2 (of_decide_eq_true h2).1)

theorem group_size (nd : P.t.sites.NodupKeys) {s : SiteId} {y : Site} (hy : P.t.sites.get? s = some y)
    (h : P.groupSize s ≤ 1) {b : SiteId} (hb : SamePlace P s b) : b = s := by
  obtain ⟨y', z, h1, h2, e1, e2, e3⟩ := hb
  rw [hy] at h1; cases h1
  obtain ⟨locs, h3, h4, h5, h6⟩ := group_of nd hy
  unfold groupSize at h
  rw [hy] at h
  dsimp only at h
  rw [h3, Option.getD_some] at h
  have m1 : s ∈ locs := (h6 s).2 ⟨y, hy, rfl⟩
  have m2 : b ∈ locs := (h6 b).2 ⟨z, h2, by unfold Site.point; rw [e1, e2, e3]⟩
  match locs, h, m1, m2 with
  | [c], _, m1, m2 =>
    rw [List.mem_singleton] at m1 m2
    rw [m1, m2]

theorem liveSite_iff (nd : P.t.sites.NodupKeys) (s : SiteId) : P.liveSite s = true ↔ Live P s := by
  cases hy : P.t.sites.get? s with
  | none =>
    constructor
    · intro h
      exfalso
      simp [liveSite, isActive, statusOf, siteStatus, hy] at h
    · rintro ⟨z, hz, _⟩
      rw [hy] at hz; cases hz
  | some y =>
    obtain ⟨locs, h3, h4, h5, h6⟩ := group_of nd hy
    have hact : P.isActive s = y.status.active := by
      simp [isActive, statusOf, siteStatus, hy]
    have hm : P.liveSite s = (y.status.active && (decide (P.groupSize s ≤ 1) ||
        y.siteType == P.maxType (locs.filter P.isActive))) := by
      unfold liveSite
      rw [hact, hy]
      dsimp only
      rw [h3, Option.getD_some]
    rw [hm]
    simp only [Bool.and_eq_true, Bool.or_eq_true, decide_eq_true_eq, beq_iff_eq]
    have key : y.status.active = true → (y.siteType = P.maxType (locs.filter P.isActive) ↔
        ∀ b z, SamePlace P s b → P.t.sites.get? b = some z → z.status.active = true →
          rank z.siteType ≤ rank y.siteType) := by
      intro ha
      have hs : s ∈ locs.filter P.isActive :=
        List.mem_filter.2 ⟨(h6 s).2 ⟨y, hy, rfl⟩, hact.trans ha⟩
      obtain ⟨_, m2, m3⟩ := maxType_spec (P := P) (locs.filter P.isActive) .cn
      change ∀ s ∈ _, ∀ ty, P.siteType? (.site s) = some ty → rank ty ≤ rank (P.maxType _) at m2
      change P.maxType _ = .cn ∨ ∃ s ∈ _, P.siteType? (.site s) = some (P.maxType _) at m3
      have inj : ∀ a b : SiteType, rank a = rank b → a = b := by
        intro a b; cases a <;> cases b <;> simp [rank]
      have mem : ∀ b, b ∈ locs.filter P.isActive ↔ ∃ z, SamePlace P s b ∧
          P.t.sites.get? b = some z ∧ z.status.active = true := by
        intro b
        rw [List.mem_filter, h6]
        constructor
        · rintro ⟨⟨z, hz, hp⟩, hb⟩
          refine ⟨z, (samePlace_iff hy hz).2 hp, hz, ?_⟩
          simpa [isActive, statusOf, siteStatus, hz] using hb
        · rintro ⟨z, hp, hz, hb⟩
          refine ⟨⟨z, hz, (samePlace_iff hy hz).1 hp⟩, ?_⟩
          simpa [isActive, statusOf, siteStatus, hz] using hb
      have hty : ∀ b z, P.t.sites.get? b = some z → P.siteType? (.site b) = some z.siteType := by
        intro b z hz
        simp [siteType?, hz]
      have hle := m2 s hs _ (hty s y hy)
      constructor
      · intro e b z hb hz hzs
        rw [e]
        exact m2 b ((mem b).2 ⟨z, hb, hz, hzs⟩) _ (hty b z hz)
      · intro h
        apply inj
        apply le_antisymm hle
        rcases m3 with e | ⟨b, hb, e⟩
        · rw [e]; exact Nat.zero_le _
        · obtain ⟨z, g1, g2, g3⟩ := (mem b).1 hb
          rw [hty b z g2] at e
          injection e with e
          rw [← e]
          exact h b z g1 g2 g3
    constructor
    · rintro ⟨h1, h2⟩
      refine ⟨y, hy, h1, ?_⟩
      rcases h2 with h2 | h2
      · intro b z hb hz _
        rw [group_size nd hy h2 hb] at hz
        rw [hy] at hz; cases hz
        exact le_refl _
      · exact (key h1).1 h2
    · rintro ⟨z, hz, h1, h2⟩
      rw [hy] at hz; cases hz
      exact ⟨h1, Or.inr ((key h1).2 h2)⟩

theorem sectorSum_dn {n : Nat} {v : Vars} {k : SectorId} {d : Sector} (hd : P.t.sectors.get? k = some d)
    (ht : d.typ = .dn) : P.sectorSum n v k = ((List.range n).map fun c => v.sector k c).sum := by
  unfold sectorSum
  congr 2
  rw [List.filter_eq_self]
  intro c hc
  unfold hasSector
  rw [hd]
  simpa [ht] using hc

theorem sectorSum_cn {n : Nat} {v : Vars} {k : SectorId} {d : Sector} (hd : P.t.sectors.get? k = some d)
    (ht : d.typ ≠ .dn) (hn : 0 < n) : P.sectorSum n v k = v.sector k 0 := by
  unfold sectorSum
  have : (List.range n).filter (fun c => P.hasSector n k c) = [0] := by
    obtain ⟨m, rfl⟩ : ∃ m, n = m + 1 := ⟨n - 1, by omega⟩
    rw [List.range_succ_eq_map, List.filter_cons_of_pos (by unfold hasSector; rw [hd]; simp [ht])]
    congr 1
    rw [List.filter_eq_nil_iff]
    intro c hc
    obtain ⟨c', _, rfl⟩ := List.mem_map.1 hc
    unfold hasSector
    rw [hd]
    simp [ht]
  rw [this]; simp

theorem one_of_sum {f : Nat → ℚ} {n : Nat} (h01 : ∀ c < n, f c = 0 ∨ f c = 1)
    (h1 : ((List.range n).map f).sum = 1) : ∃ c < n, f c = 1 ∧ ∀ c' < n, c' ≠ c → f c' = 0 := by
  rw [bin_sum f _ (fun c hc => h01 c (List.mem_range.1 hc))] at h1
  have hlen : ((List.range n).filter (fun c => f c = 1)).length = 1 := by exact_mod_cast h1
  obtain ⟨c, hc⟩ := List.length_eq_one_iff.1 hlen
  have hm : c ∈ (List.range n).filter (fun c => f c = 1) := by rw [hc]; simp
  obtain ⟨m1, m2⟩ := List.mem_filter.1 hm
  refine ⟨c, List.mem_range.1 m1, of_decide_eq_true m2, ?_⟩
  intro c' hc' hne
  rcases h01 c' hc' with h | h
  · exact h
  · exfalso
    have : c' ∈ (List.range n).filter (fun c => f c = 1) :=
      List.mem_filter.2 ⟨List.mem_range.2 hc', decide_eq_true h⟩
    rw [hc, List.mem_singleton] at this
    exact hne this

theorem hasSector_dn {n : Nat} {k : SectorId} {d : Sector} (hd : P.t.sectors.get? k = some d)
    (ht : d.typ = .dn) {c : Nat} (hc : c < n) : P.hasSector n k c = true := by
  unfold hasSector
  rw [hd]
  simpa [ht] using hc

theorem hasSector_zero {n : Nat} (hn : 0 < n) {k : SectorId} {d : Sector}
    (hd : P.t.sectors.get? k = some d) : P.hasSector n k 0 = true := by
  unfold hasSector
  rw [hd]
  simp only [Option.any_some, decide_eq_true_eq]
  split <;> omega

/-- A DN sector uses at most one channel. -/
theorem sectorSum_le_one (feas : P.InterfFeasible I x) {k : SectorId} {d : Sector}
    (hd : P.t.sectors.get? k = some d) (hn : 0 < I.channels) :
    P.sectorSum I.channels x.toVars k = 0 ∨ P.sectorSum I.channels x.toVars k = 1 := by
  by_cases ht : d.typ = .dn
  · rw [sectorSum_dn hd ht]
    by_cases h1 : I.channels = 1
    · rw [h1]
      have := feas.sector k 0 hn (hasSector_zero hn hd)
      simpa using this
    · have h2 := feas.sectorChannel (by omega) k d hd ht
      have hb : ∀ c ∈ List.range I.channels, x.sector k c = 0 ∨ x.sector k c = 1 :=
        fun c hc => feas.sector k c (List.mem_range.1 hc) (hasSector_dn hd ht (List.mem_range.1 hc))
      rw [bin_sum _ _ hb] at h2 ⊢
      have h2 : ((List.range I.channels).filter (fun c => x.sector k c = 1)).length ≤ 1 := by
        exact_mod_cast h2
      rcases Nat.le_one_iff_eq_zero_or_eq_one.1 h2 with h | h
      · left; rw [h]; norm_num
      · right; rw [h]; norm_num
  · rw [sectorSum_cn hd ht hn]
    exact feas.sector k 0 hn (hasSector_zero hn hd)

/-- A chosen link joins live sites through selected sectors, on one channel unless it
ends at a CN. -/
theorem chosen_ends (inv : P.t.Inv) (known : SectorsKnown P) (feas : P.InterfFeasible I x)
    (hn : 0 < I.channels) {l : Link} (hl : l ∈ chosen P x) {k1 k2 : SectorId}
    (hk : l.sectors = some (k1, k2)) :
    P.sectorSum I.channels x.toVars k1 = 1 ∧ P.sectorSum I.channels x.toVars k2 = 1 ∧
    x.site l.tx = 1 ∧ x.site l.rx = 1 ∧
    (typeAt P l.rx ≠ some .cn → ∀ c < I.channels, x.sector k1 c = x.sector k2 c) := by
  obtain ⟨hl0, hl1⟩ := List.mem_filter.1 hl
  obtain ⟨hr, ha⟩ := of_decide_eq_true hl1
  obtain ⟨⟨d1, hd1, hs1⟩, d2, hd2, hs2⟩ := known.ends l hl0 k1 k2 hk
  have hm := arcOf_mem hl0
  have hact := (hasActive_arcOf inv hl0).2 hr
  obtain ⟨e1, e2⟩ := sectors_arcOf inv hl0
  obtain ⟨c1, c2, c3⟩ := feas.sectorLink _ hm hact k1 k2 (by rw [e1, hk]; rfl) (by rw [e2, hk]; rfl)
  have s1 := c1 (hasSector_zero hn hd1)
  have s2 := c2 (hasSector_zero hn hd2)
  rw [ha] at s1 s2
  have keyOf : ∀ k d, P.t.sectors.get? k = some d → d.site ∈ P.t.sites.keys := by
    intro k d h
    obtain ⟨y, hy, _⟩ := known.typed k d h
    exact (Dict.mem_keys_iff _ _).2 ⟨y, hy⟩
  have b : ∀ k d, P.t.sectors.get? k = some d → 1 ≤ P.sectorSum I.channels x.toVars k →
      P.sectorSum I.channels x.toVars k = 1 ∧ x.site d.site = 1 := by
    intro k d h h1
    have h2 := feas.sectorSite k d h (keyOf k d h)
    have h3 := feas.bounds.site _ (keyOf k d h)
    have h4 := sectorSum_le_one feas h hn
    refine ⟨?_, ?_⟩
    · rcases h4 with h4 | h4
      · rw [h4] at h1; norm_num at h1
      · exact h4
    · rcases h3 with h3 | h3
      · rw [h3] at h2; linarith
      · exact h3
  obtain ⟨p1, q1⟩ := b k1 d1 hd1 s1
  obtain ⟨p2, q2⟩ := b k2 d2 hd2 s2
  refine ⟨p1, p2, hs1 ▸ q1, hs2 ▸ q2, ?_⟩
  intro hcn c hc
  by_cases h1 : I.channels = 1
  · obtain rfl : c = 0 := by omega
    have f1 := feas.sector k1 0 hn (hasSector_zero hn hd1)
    have t2 : d2.typ = .dn := by
      cases h : d2.typ with
      | dn => rfl
      | cn =>
        obtain ⟨y, hy, hiff⟩ := known.typed k2 d2 hd2
        exfalso
        apply hcn
        unfold typeAt
        rw [← hs2, hy, Option.map_some, hiff.1 h]
    have r2 : x.sector k2 0 = 1 := by
      rw [sectorSum_dn hd2 t2, h1] at p2
      simpa using p2
    have r1 : x.sector k1 0 = 1 := by
      by_cases t1 : d1.typ = .dn
      · rw [sectorSum_dn hd1 t1, h1] at p1
        simpa using p1
      · rw [sectorSum_cn hd1 t1 hn] at p1
        exact p1
    rw [r1, r2]
  · have hty : P.siteType? (arcOf l).2 ≠ some .cn := hcn
    obtain ⟨g1, g2⟩ := c3 h1 hty c hc
    rw [ha] at g1 g2
    linarith

theorem isDist_iff {b : SiteId} :
    P.isDist (.site b) = true ↔ (typeAt P b = some .dn ∨ typeAt P b = some .pop) := by
  unfold isDist siteType? typeAt
  cases hy : P.t.sites.get? b with
  | none => simp [hy]
  | some y => cases h : y.siteType <;> simp [hy, h, SiteType.isDist]

theorem mem_multiArcs {dn : Bool} {s : SiteId} {k : SectorId} {e : Arc} :
    e ∈ P.multiArcs dn s k ↔ e ∈ P.arcs ∧ P.hasActive e = true ∧ (e.1 = .site s ∧
      P.txSector e = some k ∧ (P.isDist e.2 = true ∨ (dn = false ∧ P.siteType? e.2 = some .cn))) := by
  unfold multiArcs outgoing
  rw [List.mem_filter, List.mem_filter]
  simp only [Bool.and_eq_true, Bool.or_eq_true, decide_eq_true_eq, Bool.not_eq_true',
    beq_iff_eq]
  tauto

/-- The limit on the chosen links of a sector. -/
theorem multi_le (inv : P.t.Inv) (known : SectorsKnown P) (feas : P.InterfFeasible I x)
    (hn : 0 < I.channels) {dn : Bool} {s : SiteId} {k : SectorId} {lim : Nat}
    (hs : P.isDist (.site s) = true)
    (h : ∀ d, P.t.sectors.get? k = some d → d.site = s → lim ≤ (P.multiArcs dn s k).length →
      ((P.multiArcs dn s k).map x.active).sum ≤
        lim * ((List.range I.channels).map fun c => x.sector k c).sum) :
    ((chosen P x).filter (fun l => (P.multiArcs dn s k).contains (arcOf l))).length ≤ lim := by
  have hc := chosen_count inv feas.active (fun e => (P.multiArcs dn s k).contains e)
  have hfil : P.arcs.filter (fun e => P.hasActive e && (P.multiArcs dn s k).contains e) =
      P.multiArcs dn s k := by
    have e1 : P.multiArcs dn s k = P.arcs.filter (fun e => (P.multiArcs dn s k).contains e) := by
      conv_lhs => unfold multiArcs outgoing
      rw [List.filter_filter]
      apply List.filter_congr
      intro e he
      rw [Bool.eq_iff_iff, List.contains_iff_mem, mem_multiArcs]
      simp only [Bool.and_eq_true, Bool.or_eq_true, decide_eq_true_eq, Bool.not_eq_true',
        beq_iff_eq]
      tauto
    conv_rhs => rw [e1]
    apply List.filter_congr
    intro e he
    rw [Bool.eq_iff_iff, Bool.and_eq_true, List.contains_iff_mem, mem_multiArcs]
    tauto
  rw [hfil] at hc
  cases hd : P.t.sectors.get? k with
  | none =>
    have : (chosen P x).filter (fun l => (P.multiArcs dn s k).contains (arcOf l)) = [] := by
      rw [List.filter_eq_nil_iff]
      intro l hl hm
      have hl0 := (List.mem_filter.1 hl).1
      rw [List.contains_iff_mem, mem_multiArcs] at hm
      obtain ⟨_, _, _, hm, _⟩ := hm
      rw [(sectors_arcOf inv hl0).1] at hm
      cases hk : l.sectors with
      | none => rw [hk] at hm; cases hm
      | some q =>
        obtain ⟨k1, k2⟩ := q
        rw [hk] at hm
        cases hm
        obtain ⟨⟨d, hd', _⟩, _⟩ := known.ends l hl0 _ _ hk
        rw [hd] at hd'; cases hd'
    rw [this]; exact Nat.zero_le _
  | some d =>
    by_cases hlen : lim ≤ (P.multiArcs dn s k).length
    · by_cases hds : d.site = s
      · have h1 := h d hd hds hlen
        have hdn : d.typ = .dn := by
          obtain ⟨y, hy, hiff⟩ := known.typed k d hd
          cases ht : d.typ with
          | dn => rfl
          | cn =>
            exfalso
            have := hiff.1 ht
            rw [hds] at hy
            simp [isDist, siteType?, hy, this, SiteType.isDist] at hs
        have h2 := sectorSum_le_one feas hd hn
        rw [sectorSum_dn hd hdn] at h2
        have h3 : ((List.range I.channels).map fun c => x.sector k c).sum ≤ 1 := by
          rcases h2 with h2 | h2 <;> rw [h2] <;> norm_num
        have h4 : ((P.multiArcs dn s k).map x.active).sum ≤ (lim : ℚ) := by
          have : (0 : ℚ) ≤ lim := Nat.cast_nonneg _
          nlinarith
        rw [hc] at h4
        exact_mod_cast h4
      · have : (chosen P x).filter (fun l => (P.multiArcs dn s k).contains (arcOf l)) = [] := by
          rw [List.filter_eq_nil_iff]
          intro l hl hm
          have hl0 := (List.mem_filter.1 hl).1
          rw [List.contains_iff_mem, mem_multiArcs] at hm
          obtain ⟨_, _, ht, hm, _⟩ := hm
          rw [(sectors_arcOf inv hl0).1] at hm
          cases hk : l.sectors with
          | none => rw [hk] at hm; cases hm
          | some q =>
            obtain ⟨k1, k2⟩ := q
            rw [hk] at hm
            cases hm
            obtain ⟨⟨d', hd', hs'⟩, _⟩ := known.ends l hl0 _ _ hk
            rw [hd] at hd'; cases hd'
            rw [hs'] at hds
            apply hds
            have : (arcOf l).1 = Loc.site l.tx := rfl
            rw [this] at ht
            injection ht
        rw [this]; exact Nat.zero_le _
    · have h01 : ∀ e ∈ P.multiArcs dn s k, x.active e = 0 ∨ x.active e = 1 := fun e he =>
        feas.active e (mem_multiArcs.1 he).1 (mem_multiArcs.1 he).2.1
      rw [bin_sum _ _ h01] at hc
      have h1 := List.length_filter_le (fun e => decide (x.active e = 1)) (P.multiArcs dn s k)
      have h2 : ((P.multiArcs dn s k).filter (fun e => x.active e = 1)).length =
        ((chosen P x).filter (fun l => (P.multiArcs dn s k).contains (arcOf l))).length := by
          exact_mod_cast hc
      omega

end Plan

/-- **C52.** In every solution of the interference phase: a CN has at most one chosen
incoming link; a sector of a distribution site has at most the configured number of
chosen links to distribution sites and in total; a link and its reverse are chosen
together. -/
theorem C52_limits (ops : List Op) (p : OptParams) (I : Interf) (x : IVars)
    (feas : (Plan.mk (run {} ops) p).InterfFeasible I x)
    (known : SectorsKnown ⟨run {} ops, p⟩) (hn : 0 < I.channels) :
    let P : Plan := ⟨run {} ops, p⟩
    (∀ s, typeAt P s = some .cn → ((chosen P x).filter (fun l => l.rx = s)).length ≤ 1) ∧
    (∀ s k, typeAt P s = some .dn ∨ typeAt P s = some .pop →
      ((chosen P x).filter (fun l => l.tx = s ∧ l.sectors.map (·.1) = some k ∧
        (typeAt P l.rx = some .dn ∨ typeAt P l.rx = some .pop))).length ≤ I.dnLimit ∧
      ((chosen P x).filter (fun l => l.tx = s ∧ l.sectors.map (·.1) = some k ∧
        (typeAt P l.rx).isSome)).length ≤ I.totalLimit) ∧
    (∀ l ∈ P.t.links.vals, ∀ r ∈ P.t.links.vals, Radio l → Radio r → r.tx = l.rx → r.rx = l.tx →
      (l ∈ chosen P x ↔ r ∈ chosen P x)) := by
  intro P
  have inv : P.t.Inv := Inv.empty.run ops
  refine ⟨?_, ?_, ?_⟩
  · intro s hs
    have hc := Plan.chosen_count inv feas.active (fun e => decide (e.2 = .site s))
    have hfil : P.arcs.filter (fun e => P.hasActive e && decide (e.2 = .site s)) =
        (P.incoming (.site s)).filter P.hasActive := by
      unfold Plan.incoming
      rw [List.filter_filter]
    rw [hfil] at hc
    have hlen : ((chosen P x).filter (fun l => l.rx = s)).length =
        ((chosen P x).filter (fun l => decide ((arcOf l).2 = .site s))).length := by
      congr 1
      apply List.filter_congr
      intro l _
      simp [arcOf]
    rw [hlen]
    by_cases he : (P.incoming (.site s)).filter P.hasActive = []
    · rw [he, List.map_nil, List.sum_nil] at hc
      have : ((chosen P x).filter (fun l => decide ((arcOf l).2 = .site s))).length = 0 := by
        exact_mod_cast hc.symm
      omega
    · have := feas.cnLinks s hs he
      change (((P.incoming (.site s)).filter P.hasActive).map x.active).sum ≤ 1 at this
      rw [hc] at this
      exact_mod_cast this
  · intro s k hs
    have hd := fun b => Plan.isDist_iff (P := P) (b := b)
    have hsd := (hd s).2 hs
    have conv : ∀ (dn : Bool) (Q : Link → Bool), (∀ l ∈ chosen P x, Q l = true →
        l.tx = s ∧ l.sectors.map (·.1) = some k ∧
          (P.isDist (.site l.rx) = true ∨ (dn = false ∧ P.siteType? (.site l.rx) = some .cn))) →
        ((chosen P x).filter Q).length ≤
          ((chosen P x).filter (fun l => (P.multiArcs dn s k).contains (arcOf l))).length := by
      intro dn Q hQ
      have e : (chosen P x).filter Q = ((chosen P x).filter (fun l =>
          (P.multiArcs dn s k).contains (arcOf l))).filter Q := by
        rw [List.filter_filter]
        apply List.filter_congr
        intro l hl
        rw [Bool.eq_iff_iff, Bool.and_eq_true, List.contains_iff_mem, Plan.mem_multiArcs]
        refine ⟨fun h => ⟨h, ?_⟩, fun h => h.1⟩
        obtain ⟨h1, h2, h3⟩ := hQ l hl h
        obtain ⟨hl0, hl1⟩ := List.mem_filter.1 hl
        refine ⟨Plan.arcOf_mem hl0, (Plan.hasActive_arcOf inv hl0).2 (of_decide_eq_true hl1).1,
          congrArg Loc.site h1, ?_, h3⟩
        rw [(Plan.sectors_arcOf inv hl0).1]
        exact h2
      rw [e]
      exact List.length_filter_le _ _
    refine ⟨(conv true _ ?_).trans (Plan.multi_le inv known feas hn hsd ?_),
      (conv false _ ?_).trans (Plan.multi_le inv known feas hn hsd ?_)⟩
    · intro l _ h
      obtain ⟨h1, h2, h3⟩ := of_decide_eq_true h
      exact ⟨h1, h2, .inl ((hd _).2 h3)⟩
    · intro d h1 h2 h3
      subst h2
      exact (feas.multiPoint k d h1 hsd).1 h3
    · intro l _ h
      obtain ⟨h1, h2, h3⟩ := of_decide_eq_true h
      refine ⟨h1, h2, ?_⟩
      obtain ⟨ty, hty⟩ := Option.isSome_iff_exists.1 h3
      cases ty with
      | cn => exact .inr ⟨rfl, hty⟩
      | dn => exact .inl ((hd _).2 (.inl hty))
      | pop => exact .inl ((hd _).2 (.inr hty))
    · intro d h1 h2 h3
      subst h2
      exact (feas.multiPoint k d h1 hsd).2 h3
  · intro l hl r hr h1 h2 e1 e2
    have g1 := Plan.arcOf_mem (P := P) hl
    have g2 := Plan.arcOf_mem (P := P) hr
    have a1 := (Plan.hasActive_arcOf inv hl).2 h1
    have a2 := (Plan.hasActive_arcOf inv hr).2 h2
    have hrev : arcOf r = ((arcOf l).2, (arcOf l).1) := by
      unfold arcOf
      rw [e1, e2]
    rw [hrev] at g2 a2
    have := feas.symmetric _ _ g1 a1 g2 a2
    unfold chosen
    simp only [List.mem_filter, hl, hr, h1, h2, true_and, decide_eq_true_eq, hrev]
    change x.active (Loc.site l.tx, Loc.site l.rx) = 1 ↔ x.active (Loc.site l.rx, Loc.site l.tx) = 1
    rw [this]

/-- **C52, ends.** A chosen link joins two live sites through two selected sectors; each
sender sector is on exactly one channel, and unless the receiver is a CN the receiving
sector is on that channel only. -/
theorem C52_ends (ops : List Op) (p : OptParams) (I : Interf) (x : IVars)
    (feas : (Plan.mk (run {} ops) p).InterfFeasible I x)
    (known : SectorsKnown ⟨run {} ops, p⟩) (hn : 0 < I.channels) :
    let P : Plan := ⟨run {} ops, p⟩
    ∀ l ∈ chosen P x, ∀ k1 k2, l.sectors = some (k1, k2) →
      Live P l.tx ∧ Live P l.rx ∧
      (typeAt P l.rx = some .cn → x.sector k2 0 = 1) ∧
      (typeAt P l.tx ≠ some .cn → ∃ c < I.channels, x.sector k1 c = 1 ∧
        (∀ d < I.channels, d ≠ c → x.sector k1 d = 0) ∧
        (typeAt P l.rx ≠ some .cn →
          x.sector k2 c = 1 ∧ ∀ d < I.channels, d ≠ c → x.sector k2 d = 0)) := by
  intro P l hl k1 k2 hk
  have inv : P.t.Inv := Inv.empty.run ops
  obtain ⟨s1, s2, t1, t2, same⟩ := Plan.chosen_ends inv known feas hn hl hk
  obtain ⟨hl0, _⟩ := List.mem_filter.1 hl
  obtain ⟨⟨d1, hd1, e1⟩, d2, hd2, e2⟩ := known.ends l hl0 k1 k2 hk
  have live : ∀ s, x.site s = 1 → s ∈ P.t.sites.keys → Live P s := by
    intro s h hs
    rw [feas.site s hs] at h
    by_contra hc
    rw [if_neg (fun h' => hc ((Plan.liveSite_iff inv.nd_sites s).1 h'))] at h
    norm_num at h
  have typ : ∀ k d, P.t.sectors.get? k = some d → (d.typ = .cn ↔ typeAt P d.site = some .cn) := by
    intro k d h
    obtain ⟨y, hy, hiff⟩ := known.typed k d h
    unfold typeAt
    rw [hy, hiff]
    simp
  have key : ∀ k d, P.t.sectors.get? k = some d → d.site ∈ P.t.sites.keys := by
    intro k d h
    obtain ⟨y, hy, _⟩ := known.typed k d h
    exact (Dict.mem_keys_iff _ _).2 ⟨y, hy⟩
  refine ⟨live _ t1 (e1 ▸ key _ _ hd1), live _ t2 (e2 ▸ key _ _ hd2), ?_, ?_⟩
  · intro hcn
    rw [Plan.sectorSum_cn hd2 ?_ hn] at s2
    · exact s2
    · have := (typ k2 d2 hd2).2 (e2 ▸ hcn)
      rw [this]; decide
  · intro hdn
    have ht1 : d1.typ = .dn := by
      cases h : d1.typ with
      | dn => rfl
      | cn => exact absurd (e1 ▸ (typ k1 d1 hd1).1 h) hdn
    rw [Plan.sectorSum_dn hd1 ht1] at s1
    obtain ⟨c, hc, g1, g2⟩ := Plan.one_of_sum
      (fun c hc => feas.sector k1 c hc (Plan.hasSector_dn hd1 ht1 hc)) s1
    refine ⟨c, hc, g1, g2, ?_⟩
    intro hcn
    have hs := same hcn
    exact ⟨(hs c hc).symm.trans g1, fun d hd hne => (hs d hd).symm.trans (g2 d hd hne)⟩

theorem SectorsKnown.of {P : Plan}
    (h1 : ∀ l ∈ P.t.links.vals, ∀ q ∈ l.sectors.toList,
      (P.t.sectors.get? q.1).any (fun d => d.site == l.tx) = true ∧
      (P.t.sectors.get? q.2).any (fun d => d.site == l.rx) = true)
    (h2 : ∀ e ∈ P.t.sectors, (P.t.sites.get? e.2.site).any
      (fun y => (e.2.typ == .cn) == (y.siteType == .cn)) = true) : SectorsKnown P where
  ends l hl k1 k2 hk := by
    obtain ⟨g1, g2⟩ := h1 l hl (k1, k2) (by rw [hk]; simp)
    rw [Option.any_eq_true] at g1 g2
    obtain ⟨d1, a1, b1⟩ := g1
    obtain ⟨d2, a2, b2⟩ := g2
    exact ⟨⟨d1, a1, by simpa using b1⟩, d2, a2, by simpa using b2⟩
  typed k d hd := by
    have := h2 (k, d) (Dict.mem_of_get? _ hd)
    rw [Option.any_eq_true] at this
    obtain ⟨y, a, b⟩ := this
    refine ⟨y, a, ?_⟩
    rw [beq_iff_eq, Bool.eq_iff_iff] at b
    simpa using b

theorem interfDemo_known : SectorsKnown ⟨run {} interfDemo, interfDemoParams⟩ :=
  SectorsKnown.of (by decide +kernel) (by decide +kernel)

/-- Six of the seven links of the example are chosen; `C` hears two radio links of which
one is chosen, and the sector of `P` at its DN limit of 1. -/
example : SectorsKnown ⟨run {} interfDemo, interfDemoParams⟩ ∧ 0 < interfDemoIn.channels ∧
    (chosen ⟨run {} interfDemo, interfDemoParams⟩ interfDemoVars).length = 6 ∧
    ((chosen ⟨run {} interfDemo, interfDemoParams⟩ interfDemoVars).filter
      (fun l => l.rx = "C")).length = 1 := by
  refine ⟨interfDemo_known, by decide, by decide +kernel, by decide +kernel⟩

/-- **C48, `_partial`.** In the cost, coverage and POP-proposal phases sectors of a site
are selected together, so in particular the sectors of a node. Missing: the
interference phase, where it fails, see `C48_violation`. -/
theorem C48_site_phases_partial (ops : List Op) (p : OptParams) (adv : Arc → Bool) (x : Vars)
    (feas : (Plan.mk (run {} ops) p).SiteFeasible adv x) (k1 k2 : SectorId) (d1 d2 : Sector)
    (h1 : (run {} ops).sectors.get? k1 = some d1) (h2 : (run {} ops).sectors.get? k2 = some d2)
    (hs : d1.site = d2.site) : x.sector k1 0 = x.sector k2 0 := by
  rw [feas.sectorSite k1 d1 h1, feas.sectorSite k2 d2 h2, hs]

example : ∃ k1 k2 d1 d2, k1 ≠ k2 ∧
    (run {} planDemo).sectors.get? k1 = some d1 ∧ (run {} planDemo).sectors.get? k2 = some d2 ∧
    d1.site = d2.site ∧ planDemoVars.sector k1 0 = 1 :=
  ⟨⟨"D", 0, 0, .dn⟩, ⟨"D", 0, 1, .dn⟩, _, _, by decide, rfl, rfl, rfl, rfl⟩

/-- **C48, violated.** A feasible solution of the interference phase with one sector of
a node selected and the other on no channel. -/
theorem C48_violation : ∃ (ops : List Op) (p : OptParams) (I : Interf) (x : IVars),
    (Plan.mk (run {} ops) p).setupErr = none ∧
    (Plan.mk (run {} ops) p).InterfFeasible I x ∧
    ∃ k1 k2 d1 d2, (run {} ops).sectors.get? k1 = some d1 ∧ (run {} ops).sectors.get? k2 = some d2 ∧
      d1.site = d2.site ∧ d1.node = d2.node ∧ x.sector k1 1 = 1 ∧ ∀ c, x.sector k2 c = 0 :=
  ⟨interfDemo ++ [.addSector { site := "D", node := 1, pos := 1 }], interfDemoParams, interfDemoIn,
    { interfDemoVars with
      sector := fun k c => if k = ⟨"D", 1, 1, .dn⟩ then 0 else interfDemoVars.sector k c },
    by decide +kernel, Plan.ICheck.sound (by decide +kernel),
    ⟨"D", 1, 0, .dn⟩, ⟨"D", 1, 1, .dn⟩, { site := "D", node := 1, pos := 0 },
    { site := "D", node := 1, pos := 1 }, rfl, rfl, rfl, rfl, by decide +kernel, fun c => rfl⟩

end Verif
