import Verif.Spec.Metrics
import Verif.Props.Nx
import Verif.Props.Counter2
import Verif.Props.MaxFlow
import Verif.Props.Prune2

/-! # C118: how much of each link is used according to the report -/

namespace Verif
open Spec Topology

/-- The other direction. -/
def LinkId.flip (i : LinkId) : LinkId := ⟨i.rx, i.tx⟩

/-- What the table says about a link and its reverse. -/
def PairOk (U : Dict LinkId ℚ) (i : LinkId) (u v : ℚ) : Prop :=
  (Plan.near0 u = false → Plan.near0 v = false → U.get? i = some u ∧ U.get? (LinkId.flip i) = some v) ∧
  (Plan.near0 u = true ∨ Plan.near0 v = true →
    (U.get? i = some u ∧ U.get? (LinkId.flip i) = none ∧ v ≤ u) ∨ (U.get? i = none ∧ U.get? (LinkId.flip i) = some v ∧ u ≤ v))

theorem LinkId.flip_flip (i : LinkId) : LinkId.flip (LinkId.flip i) = i := rfl

theorem PairOk.symm {U : Dict LinkId ℚ} {i : LinkId} {u v : ℚ} (h : PairOk U i u v) : PairOk U (LinkId.flip i) v u := by
  refine ⟨fun a b => ⟨(h.1 b a).2, (h.1 b a).1⟩, fun a => ?_⟩
  rcases h.2 a.symm with ⟨x, y, z⟩ | ⟨x, y, z⟩
  · exact Or.inr ⟨y, x, z⟩
  · exact Or.inl ⟨y, x, z⟩

/-- The table after the links in `L`. -/
structure UtilInv (flow : LinkId → ℚ) (L : List Link) (U : Dict LinkId ℚ) : Prop where
  nd : U.NodupKeys
  entry : ∀ i u, U.get? i = some u → ∃ l ∈ L, l.status.active = true ∧ l.id = i ∧ u = percentOf flow l
  alone : ∀ l ∈ L, l.status.active = true → (∀ l' ∈ L, l'.status.active = true → l'.id ≠ LinkId.flip l.id) →
    U.get? l.id = some (percentOf flow l)
  pair : ∀ l ∈ L, l.status.active = true → ∀ l' ∈ L, l'.status.active = true → l'.id = LinkId.flip l.id →
    PairOk U l.id (percentOf flow l) (percentOf flow l')

theorem UtilInv.step {flow : LinkId → ℚ} {L : List Link} {U : Dict LinkId ℚ} (h : UtilInv flow L U) (l : Link)
    (hf : ∀ l' ∈ L, l'.id ≠ l.id) (hs : l.tx ≠ l.rx) (hsL : ∀ l' ∈ L, l'.tx ≠ l'.rx) :
    UtilInv flow (L ++ [l]) (utilStep flow U l) := by
  by_cases ha : l.status.active = true
  swap
  · unfold utilStep
    rw [if_neg ha]
    refine ⟨h.nd, fun i u hu => ?_, fun k hk hka hkn => ?_, fun k hk hka k' hk' hka' e => ?_⟩
    · obtain ⟨k, h1, h2⟩ := h.entry i u hu
      exact ⟨k, List.mem_append_left _ h1, h2⟩
    · rcases List.mem_append.1 hk with hk | hk
      · exact h.alone k hk hka fun k' hk' => hkn k' (List.mem_append_left _ hk')
      · rw [List.mem_singleton.1 hk] at hka; exact absurd hka ha
    · rcases List.mem_append.1 hk with hk | hk
      · rcases List.mem_append.1 hk' with hk' | hk'
        · exact h.pair k hk hka k' hk' hka' e
        · rw [List.mem_singleton.1 hk'] at hka'; exact absurd hka' ha
      · rw [List.mem_singleton.1 hk] at hka; exact absurd hka ha
  have hne : l.id ≠ LinkId.flip l.id := by
    intro e
    simp only [Link.id, LinkId.flip, LinkId.mk.injEq] at e
    exact hs e.1
  have hnone : U.get? l.id = none := by
    cases hu : U.get? l.id with
    | none => rfl
    | some u =>
      obtain ⟨k, h1, _, h3, _⟩ := h.entry _ _ hu
      exact absurd h3 (hf k h1)
  have hflip : (⟨l.rx, l.tx⟩ : LinkId) = LinkId.flip l.id := rfl
  have hrev : (U.set l.id (percentOf flow l)).get? ⟨l.rx, l.tx⟩ = U.get? (LinkId.flip l.id) := by
    show _ = _
    rw [hflip, Dict.get?_set, if_neg hne]
  -- entries of other links
  have others : ∀ V : Dict LinkId ℚ, (∀ i, i ≠ l.id → i ≠ LinkId.flip l.id → V.get? i = U.get? i) → V.NodupKeys →
      (V.get? l.id = none ∨ V.get? l.id = some (percentOf flow l)) →
      (V.get? (LinkId.flip l.id) = none ∨ V.get? (LinkId.flip l.id) = U.get? (LinkId.flip l.id)) →
      ((∀ k ∈ L, k.status.active = true → k.id ≠ LinkId.flip l.id) → V.get? l.id = some (percentOf flow l)) →
      (∀ k ∈ L, k.status.active = true → k.id = LinkId.flip l.id → PairOk V l.id (percentOf flow l) (percentOf flow k)) →
      UtilInv flow (L ++ [l]) V := by
    intro V hV hnd h1 h2 hal hpa
    refine ⟨hnd, fun i u hu => ?_, fun k hk hka hkn => ?_, fun k hk hka k' hk' hka' e => ?_⟩
    · by_cases c : i = l.id
      · subst c
        rcases h1 with h1 | h1
        · rw [h1] at hu; cases hu
        · rw [h1] at hu; cases hu
          exact ⟨l, by simp, ha, rfl, rfl⟩
      · have : U.get? i = some u := by
          by_cases c' : i = LinkId.flip l.id
          · subst c'
            rcases h2 with h2 | h2
            · rw [h2] at hu; cases hu
            · rw [← h2]; exact hu
          · rw [← hV i c c']; exact hu
        obtain ⟨k, g1, g2⟩ := h.entry i u this
        exact ⟨k, List.mem_append_left _ g1, g2⟩
    · rcases List.mem_append.1 hk with hk | hk
      · have c1 : k.id ≠ l.id := hf k hk
        have c2 : k.id ≠ LinkId.flip l.id := fun e => by
          have := hkn l (by simp) ha
          rw [e, LinkId.flip_flip] at this
          exact this rfl
        rw [hV _ c1 c2]
        exact h.alone k hk hka fun k' hk' => hkn k' (List.mem_append_left _ hk')
      · rw [List.mem_singleton.1 hk]
        apply hal
        intro k' hk' hka'
        have := hkn k' (List.mem_append_left _ hk') hka'
        rwa [List.mem_singleton.1 hk] at this
    · rcases List.mem_append.1 hk with hkL | hkL
      · rcases List.mem_append.1 hk' with hkL' | hkL'
        · have c1 : k.id ≠ l.id := hf k hkL
          have c1' : k'.id ≠ l.id := hf k' hkL'
          have c2 : k.id ≠ LinkId.flip l.id := fun e' => by
            rw [e', LinkId.flip_flip] at e
            exact c1' e
          have c2' : LinkId.flip k.id ≠ LinkId.flip l.id := fun e' => by
            apply c1
            rw [← LinkId.flip_flip k.id, e', LinkId.flip_flip]
          have c3 : LinkId.flip k.id ≠ l.id := by rw [← e]; exact c1'
          have := h.pair k hkL hka k' hkL' hka' e
          unfold PairOk at this ⊢
          rw [hV _ c1 c2, hV _ c3 c2']
          exact this
        · have e' := List.mem_singleton.1 hkL'
          subst e'
          have : k.id = LinkId.flip k'.id := by rw [e, LinkId.flip_flip]
          have hp := (hpa k hkL hka this).symm
          rw [← this] at hp
          exact hp
      · have e' := List.mem_singleton.1 hkL
        subst e'
        rcases List.mem_append.1 hk' with hkL' | hkL'
        · exact hpa k' hkL' hka' e
        · rw [List.mem_singleton.1 hkL'] at e
          exact absurd e hne
  unfold utilStep
  rw [if_pos ha]
  dsimp only
  rw [hrev]
  rw [hflip]
  have keep : ∀ i, i ≠ l.id → (U.set l.id (percentOf flow l)).get? i = U.get? i := fun i hi => by
    rw [Dict.get?_set, if_neg (Ne.symm hi)]
  cases hr : U.get? (LinkId.flip l.id) with
  | none =>
    dsimp only
    have no : ∀ k ∈ L, k.status.active = true → k.id ≠ LinkId.flip l.id := by
      intro k hk hka e
      have := h.alone k hk hka (fun k' hk' _ e' => by
        rw [e, LinkId.flip_flip] at e'
        exact hf k' hk' e')
      rw [e, hr] at this
      cases this
    refine others _ (fun i h1 _ => keep i h1) (h.nd.set _ _) (Or.inr (by simp)) (Or.inl ?_) (fun _ => by simp) ?_
    · rw [keep _ hne.symm, hr]
    · intro k hk hka e
      exact absurd e (no k hk hka)
  | some v =>
    dsimp only
    have some_l : ∀ k ∈ L, k.status.active = true → k.id = LinkId.flip l.id → percentOf flow k = v := by
      intro k hk hka e
      have := h.alone k hk hka (fun k' hk' _ e' => by
        rw [e, LinkId.flip_flip] at e'
        exact hf k' hk' e')
      rw [e, hr] at this
      cases this
      rfl
    obtain ⟨k0, hk0, ha0, e0, _⟩ := h.entry _ _ hr
    split_ifs with c1 c2
    · refine others _ (fun i h1 h2 => ?_) ((h.nd.set _ _).del _) (Or.inr ?_) (Or.inl ?_) (fun hh => ?_) ?_
      · rw [Dict.get?_del, if_neg (Ne.symm h2)]; exact keep i h1
      · rw [Dict.get?_del, if_neg (Ne.symm hne)]; simp
      · rw [Dict.get?_del]; exact if_pos rfl
      · exact absurd e0 (hh k0 hk0 ha0)
      · intro k hk hka e
        rw [some_l k hk hka e]
        refine ⟨fun a b => ?_, fun _ => Or.inl ⟨?_, ?_, le_of_lt c2⟩⟩
        · rw [a, b] at c1; simp at c1
        · rw [Dict.get?_del, if_neg (Ne.symm hne)]; simp
        · rw [Dict.get?_del]; exact if_pos rfl
    · refine others _ (fun i h1 h2 => ?_) ((h.nd.set _ _).del _) (Or.inl ?_) (Or.inr ?_) (fun hh => ?_) ?_
      · rw [Dict.get?_del, if_neg (Ne.symm h1)]; exact keep i h1
      · rw [Dict.get?_del]; exact if_pos rfl
      · rw [Dict.get?_del, if_neg hne]; exact keep _ hne.symm
      · exact absurd e0 (hh k0 hk0 ha0)
      · intro k hk hka e
        rw [some_l k hk hka e]
        refine ⟨fun a b => ?_, fun _ => Or.inr ⟨?_, ?_, not_lt.1 c2⟩⟩
        · rw [a, b] at c1; simp at c1
        · rw [Dict.get?_del]; exact if_pos rfl
        · rw [Dict.get?_del, if_neg hne, keep _ hne.symm, hr]
    · refine others _ (fun i h1 h2 => keep i h1) (h.nd.set _ _) (Or.inr (by simp)) (Or.inr (keep _ hne.symm))
        (fun _ => by simp) ?_
      intro k hk hka e
      rw [some_l k hk hka e]
      refine ⟨fun _ _ => ⟨by simp, by rw [keep _ hne.symm, hr]⟩, fun hh => ?_⟩
      simp only [Bool.or_eq_true] at c1
      exact absurd hh c1

theorem UtilInv.fold {flow : LinkId → ℚ} (L L0 : List Link) (U : Dict LinkId ℚ) (h : UtilInv flow L0 U)
    (nd : ((L0 ++ L).map Link.id).Nodup) (hs : ∀ l ∈ L0 ++ L, l.tx ≠ l.rx) :
    UtilInv flow (L0 ++ L) (L.foldl (utilStep flow) U) := by
  induction L generalizing L0 U with
  | nil => simpa using h
  | cons l L ih =>
    rw [List.foldl_cons]
    have e : L0 ++ l :: L = (L0 ++ [l]) ++ L := by simp
    rw [e] at nd hs ⊢
    refine ih _ _ (h.step l ?_ (hs l (by simp)) fun l' hl' => hs l' (by simp [hl'])) nd hs
    intro l' hl' e'
    rw [List.map_append, List.map_append] at nd
    have := (List.nodup_append.1 (List.nodup_append.1 nd).1).2.2 l'.id (List.mem_map.2 ⟨l', hl', rfl⟩) l.id (by simp)
    exact this e'

theorem near0_iff (q : ℚ) : Plan.near0 q = true ↔ |q| ≤ 1 / 100000 := by
  unfold Plan.near0 Plan.eps
  rw [decide_eq_true_eq, abs_le]

theorem not_near0_iff (q : ℚ) : Plan.near0 q = false ↔ 1 / 100000 < |q| := by
  rw [← not_le, ← near0_iff]
  simp

theorem share_iff {flow : LinkId → ℚ} {l : Link} {u : ℚ} : Share flow l u ↔ u = percentOf flow l := by
  unfold Share percentOf
  by_cases h : 0 < l.capacity
  · rw [if_pos h]
    have hne : l.capacity ≠ 0 := ne_of_gt h
    constructor
    · rintro ⟨h1, _⟩
      rw [← mul_div_assoc, eq_div_iff hne]
      exact h1 h
    · rintro rfl
      refine ⟨fun _ => ?_, fun h' => absurd h (not_lt.2 h')⟩
      rw [← mul_div_assoc, div_mul_cancel₀ _ hne]
      rfl
  · rw [if_neg h, mul_zero]
    exact ⟨fun hh => hh.2 (not_lt.1 h), fun e => ⟨fun h' => absurd h' h, fun _ => e⟩⟩

theorem usedLink_iff {t : Topology} (inv : t.Inv) {l : Link} :
    (l ∈ t.links.vals ∧ l.status.active = true) ↔ UsedLink t l.tx l.rx l := by
  unfold UsedLink
  rw [active_iff]
  constructor
  · rintro ⟨h, h'⟩
    obtain ⟨⟨i, l⟩, hi, rfl⟩ := List.mem_map.1 h
    have hg := (Dict.mem_iff_get? inv.nd_links _ _).1 hi
    exact ⟨inv.link_id _ _ hg ▸ hg, h'⟩
  · rintro ⟨h, h'⟩
    exact ⟨List.mem_map.2 ⟨_, (Dict.mem_iff_get? inv.nd_links _ _).2 h, rfl⟩, h'⟩

theorem usedLink_ends {t : Topology} (inv : t.Inv) {a b : SiteId} {l : Link} (h : UsedLink t a b l) :
    l.tx = a ∧ l.rx = b := by
  have := inv.link_id _ _ h.1
  simp only [LinkId.mk.injEq] at this
  exact ⟨this.1.symm, this.2.symm⟩

theorem util_inv {t : Topology} (inv : t.Inv) (hs : NoSelfLink t) (flow : LinkId → ℚ) :
    UtilInv flow t.links.vals (t.linkUtilization flow) := by
  have := UtilInv.fold (flow := flow) t.links.vals [] [] ⟨Dict.nodupKeys_nil, by simp, by simp, by simp⟩ ?_ ?_
  · exact this
  · have e : (([] ++ t.links.vals).map Link.id) = t.links.keys := by
      unfold Dict.vals Dict.keys
      rw [List.nil_append, List.map_map]
      apply List.map_congr_left
      rintro ⟨i, l⟩ hi
      exact (inv.link_id _ _ ((Dict.mem_iff_get? inv.nd_links _ _).1 hi)).symm
    rw [e]
    exact inv.nd_links
  · intro l hl e
    rw [List.nil_append] at hl
    obtain ⟨⟨i, l⟩, hi, rfl⟩ := List.mem_map.1 hl
    have hg := (Dict.mem_iff_get? inv.nd_links _ _).1 hi
    have hid := inv.link_id _ _ hg
    simp only at e
    rw [hid, e] at hg
    rw [hs] at hg
    cases hg

/-- **C118.** The table of utilizations has an entry for each link in use, the percentage of its capacity that the flow
takes, except that of two opposite links of which one is hardly used (up to 0.00001 percent) only the larger one is
listed. -/
theorem C118_table (ops : List Op) (flow : LinkId → ℚ) (hs : NoSelfLink (run {} ops)) :
    let U := (run {} ops).linkUtilization flow
    (∀ i u, U.get? i = some u → ∃ l, UsedLink (run {} ops) i.tx i.rx l ∧ Share flow l u) ∧
    (∀ a b l u, UsedLink (run {} ops) a b l → Share flow l u → (∀ l', ¬ UsedLink (run {} ops) b a l') →
      U.get? ⟨a, b⟩ = some u) ∧
    (∀ a b l u l' v, UsedLink (run {} ops) a b l → Share flow l u → UsedLink (run {} ops) b a l' → Share flow l' v →
      (1 / 100000 < |u| → 1 / 100000 < |v| → U.get? ⟨a, b⟩ = some u ∧ U.get? ⟨b, a⟩ = some v) ∧
      (|u| ≤ 1 / 100000 ∨ |v| ≤ 1 / 100000 →
        (U.get? ⟨a, b⟩ = some u ∧ U.get? ⟨b, a⟩ = none ∧ v ≤ u) ∨
        (U.get? ⟨a, b⟩ = none ∧ U.get? ⟨b, a⟩ = some v ∧ u ≤ v))) := by
  have inv := Inv.empty.run ops
  generalize run {} ops = t at *
  intro U
  have h := util_inv inv hs flow
  refine ⟨fun i u hu => ?_, fun a b l u hl hu hn => ?_, fun a b l u l' v hl hu hl' hv => ?_⟩
  · obtain ⟨l, h1, h2, rfl, h4⟩ := h.entry i u hu
    exact ⟨l, (usedLink_iff inv).1 ⟨h1, h2⟩, share_iff.2 h4⟩
  · obtain ⟨rfl, rfl⟩ := usedLink_ends inv hl
    obtain ⟨h1, h2⟩ := (usedLink_iff inv).2 hl
    rw [share_iff.1 hu]
    refine h.alone l h1 h2 fun l' hl' ha e => hn l' ?_
    have := (usedLink_iff inv).1 ⟨hl', ha⟩
    simp only [Link.id, LinkId.flip, LinkId.mk.injEq] at e
    rwa [e.1, e.2] at this
  · obtain ⟨rfl, rfl⟩ := usedLink_ends inv hl
    obtain ⟨e1, e2⟩ := usedLink_ends inv hl'
    obtain ⟨h1, h2⟩ := (usedLink_iff inv).2 hl
    obtain ⟨h1', h2'⟩ := (usedLink_iff inv).2 (by rw [← e1, ← e2] at hl'; exact hl')
    have hp := h.pair l h1 h2 l' h1' h2' (by rw [Link.id, e1, e2]; rfl)
    rw [← share_iff.1 hu, ← share_iff.1 hv] at hp
    unfold PairOk at hp
    rw [not_near0_iff, not_near0_iff, near0_iff, near0_iff] at hp
    exact hp

/-- **C118.** The utilization stored with each link in use is right up to 0.00001 percent. -/
theorem C118_reported (ops : List Op) (flow : LinkId → ℚ) (hs : NoSelfLink (run {} ops)) (hf : ∀ i, 0 ≤ flow i)
    (a b : SiteId) (l : Link) (hl : UsedLink (run {} ops) a b l) (u : ℚ) (hu : Share flow l u) :
    |reportedUtil ((run {} ops).linkUtilization flow) l - u| ≤ 1 / 100000 := by
  obtain ⟨h1, h2, h3⟩ := C118_table ops flow hs
  have inv := Inv.empty.run ops
  generalize run {} ops = t at *
  obtain ⟨e1, e2⟩ := usedLink_ends inv hl
  have hid : l.id = ⟨a, b⟩ := by rw [Link.id, e1, e2]
  have nn : ∀ (k : Link) (w : ℚ), Share flow k w → 0 ≤ w := by
    intro k w hw
    by_cases c : 0 < k.capacity
    · have := hw.1 c
      by_contra hc
      have : w * k.capacity < 0 := mul_neg_of_neg_of_pos (not_le.1 hc) c
      have := hf ⟨k.tx, k.rx⟩
      linarith [hw.1 c]
    · rw [hw.2 (not_lt.1 c)]
  unfold reportedUtil
  rw [hid]
  have exact_case : (t.linkUtilization flow).get? ⟨a, b⟩ = some u →
      |((t.linkUtilization flow).get? ⟨a, b⟩).getD 0 - u| ≤ 1 / 100000 := by
    intro h
    rw [h]
    simp
  by_cases hn : ∃ l', UsedLink t b a l'
  · obtain ⟨l', hl'⟩ := hn
    have hv : Share flow l' (percentOf flow l') := share_iff.2 rfl
    obtain ⟨k1, k2⟩ := h3 a b l u l' _ hl hu hl' hv
    by_cases c : |u| ≤ 1 / 100000 ∨ |percentOf flow l'| ≤ 1 / 100000
    · rcases k2 c with ⟨g, _⟩ | ⟨g1, _, g3⟩
      · exact exact_case g
      · rw [g1, Option.getD_none, zero_sub, abs_neg]
        rcases c with c | c
        · exact c
        · have := nn l u hu
          rw [abs_of_nonneg this]
          exact g3.trans ((le_abs_self _).trans c)
    · rw [not_or, not_le, not_le] at c
      exact exact_case (k1 c.1 c.2).1
  · exact exact_case (h2 a b l u hl hu fun l' hl' => hn ⟨l', hl'⟩)

/-- **C118.** With the flow of the report, also after its loops are removed, no utilization is below 0 or above 100
percent. -/
theorem C118_range (ops : List Op) (p : OptParams) (conn : List Loc) (b : ℚ) (x : Vars) (g : Arc → ℚ)
    (ok : (Plan.mk (run {} ops) p).setupErr = none) (feas : (Plan.mk (run {} ops) p).RouteFeasible conn b x)
    (hg : ∃ n, Plan.pruneFlows n (Plan.mk (run {} ops) p).locations (Plan.mk (run {} ops) p).arcs x.flow = some g)
    (hs : NoSelfLink (run {} ops)) :
    ∀ i u, ((run {} ops).linkUtilization fun i => g (.site i.tx, .site i.rx)).get? i = some u → 0 ≤ u ∧ u ≤ 100 := by
  intro i u hu
  obtain ⟨h1, _, _⟩ := C118_table ops (fun i => g (.site i.tx, .site i.rx)) hs
  obtain ⟨l, hl, hsu⟩ := h1 i u hu
  obtain ⟨_, _, _, hflow, _⟩ := C88_routing_respects_network ops p conn b x ok feas
  obtain ⟨hn, hself, he⟩ := Plan.graph (Plan.ready ok)
  obtain ⟨n, hg⟩ := hg
  obtain ⟨_, hb, _⟩ := (C46_prune_loops _ _ x.flow hn hself he).2 n g hg
  have inv := Inv.empty.run ops
  have hm : l ∈ (run {} ops).links.vals := by
    obtain ⟨e1, e2⟩ := usedLink_ends inv hl
    rw [← e1, ← e2] at hl
    exact ((usedLink_iff inv).2 hl).1
  obtain ⟨f0, fw, fe⟩ := hflow l hm
  have hbl := hb (arcOf l)
  by_cases c : 0 < l.capacity
  · have hle : x.flow (arcOf l) ≤ l.capacity := by
      cases hw : l.isWireless with
      | true =>
        obtain ⟨q1, q2, q3⟩ := fw (le_of_lt c) hw
        refine q1.trans ?_
        exact mul_le_of_le_one_right (le_of_lt c) q3
      | false => exact fe (le_of_lt c) hw
    have e := hsu.1 c
    have g0 : 0 ≤ g (arcOf l) := hbl.2 f0
    have g1 : g (arcOf l) ≤ l.capacity := hbl.1.trans hle
    change u * l.capacity = 100 * g (arcOf l) at e
    constructor
    · by_contra hc
      have := mul_neg_of_neg_of_pos (not_le.1 hc) c
      linarith
    · by_contra hc
      have := mul_lt_mul_of_pos_right (not_le.1 hc) c
      linarith
  · rw [hsu.2 (not_lt.1 c)]
    norm_num

/-- **C118, the part that holds.** If of any two opposite links in use one is hardly used, the table has one entry for
each pair of sites with a link in use. Missing: the flow of the report, of which loops were removed, but only as far as
0.00001 units of flow (`C118_tolerance_violation`). -/
theorem C118_one_per_pair_partial (ops : List Op) (flow : LinkId → ℚ) (hs : NoSelfLink (run {} ops))
    (h0 : ∀ a b l l' u v, UsedLink (run {} ops) a b l → UsedLink (run {} ops) b a l' → Share flow l u → Share flow l' v →
      |u| ≤ 1 / 100000 ∨ |v| ≤ 1 / 100000) (P : Finset (Sym2 SiteId)) (hP : UsedPairs (run {} ops) P) :
    ((run {} ops).linkUtilization flow).length = P.card := by
  obtain ⟨h1, h2, h3⟩ := C118_table ops flow hs
  have inv := Inv.empty.run ops
  generalize run {} ops = t at *
  have hnd := (util_inv inv hs flow).nd
  have e : (t.linkUtilization flow).length = (t.linkUtilization flow).keys.toFinset.card := by
    rw [List.toFinset_card_of_nodup hnd]
    simp [Dict.keys]
  rw [e]
  apply Finset.card_bij (fun (i : LinkId) _ => s(i.tx, i.rx))
  · intro i hi
    obtain ⟨u, hu⟩ := (Dict.mem_keys_iff _ _).1 (List.mem_toFinset.1 hi)
    obtain ⟨l, hl, _⟩ := h1 i u hu
    exact (hP _).2 ⟨i.tx, i.rx, l, rfl, hl⟩
  · intro i hi j hj e
    obtain ⟨u, hu⟩ := (Dict.mem_keys_iff _ _).1 (List.mem_toFinset.1 hi)
    obtain ⟨v, hv⟩ := (Dict.mem_keys_iff _ _).1 (List.mem_toFinset.1 hj)
    rw [Sym2.eq_iff] at e
    rcases e with ⟨e1, e2⟩ | ⟨e1, e2⟩
    · cases i; cases j; simp only at e1 e2; rw [e1, e2]
    · obtain ⟨l, hl, hlu⟩ := h1 i u hu
      obtain ⟨l', hl', hlv⟩ := h1 j v hv
      rw [← e2, ← e1] at hl'
      have hj' : j = ⟨i.rx, i.tx⟩ := by cases j; simp only at e1 e2; rw [e1, e2]
      have hi' : i = ⟨i.tx, i.rx⟩ := rfl
      rw [hj'] at hv
      rw [hi'] at hu
      rcases (h3 _ _ l u l' v hl hlu hl' hlv).2 (h0 _ _ l l' u v hl hl' hlu hlv) with ⟨_, g, _⟩ | ⟨g, _⟩
      · rw [hv] at g; cases g
      · rw [hu] at g; cases g
  · intro p hp
    obtain ⟨a, b, l, rfl, hl⟩ := (hP p).1 hp
    have hu : Share flow l (percentOf flow l) := share_iff.2 rfl
    have mem : ∀ i u, (t.linkUtilization flow).get? i = some u → i ∈ (t.linkUtilization flow).keys.toFinset :=
      fun i u h => List.mem_toFinset.2 ((Dict.mem_keys_iff _ _).2 ⟨u, h⟩)
    by_cases hn : ∃ l', UsedLink t b a l'
    · obtain ⟨l', hl'⟩ := hn
      have hv : Share flow l' (percentOf flow l') := share_iff.2 rfl
      rcases (h3 _ _ l _ l' _ hl hu hl' hv).2 (h0 _ _ l l' _ _ hl hl' hu hv) with ⟨g, _⟩ | ⟨_, g, _⟩
      · exact ⟨_, mem _ _ g, rfl⟩
      · exact ⟨_, mem _ _ g, Sym2.eq_swap⟩
    · exact ⟨_, mem _ _ (h2 a b l _ hl hu fun l' hl' => hn ⟨l', hl'⟩), rfl⟩

/-- A POP and a DN with links in both directions. -/
def twoLinks (c : ℚ) : List Op :=
  [.addSite { id := "P", siteType := .pop, status := .existing } false,
   .addSite { id := "D", siteType := .dn, status := .proposed, lat := 1 } false,
   .addLink { tx := "P", rx := "D", status := .proposed, capacity := c },
   .addLink { tx := "D", rx := "P", status := .proposed, capacity := c }]

/-- **C118 is violated.** Removing loops leaves up to 0.00001 units of flow against the main direction. On a link with
a capacity of 1.8 this is more than 0.00001 percent, so that the pair of links is listed twice. -/
theorem C118_tolerance_violation :
    let flow : LinkId → ℚ := fun i => if i = ⟨"P", "D"⟩ then 1 else if i = ⟨"D", "P"⟩ then 9 / 1000000 else 0
    NoSelfLink (run {} (twoLinks (9 / 5))) ∧ (∀ a b, 0 ≤ flow ⟨a, b⟩ ∧ (flow ⟨a, b⟩ ≤ 1 / 100000 ∨ flow ⟨b, a⟩ ≤ 1 / 100000)) ∧
    UsedPairs (run {} (twoLinks (9 / 5))) {s("P", "D")} ∧
    ((run {} (twoLinks (9 / 5))).linkUtilization flow).length = 2 := by
  intro flow
  have hl : (run {} (twoLinks (9 / 5))).links =
      [(⟨"P", "D"⟩, { tx := "P", rx := "D", status := .proposed, capacity := 9 / 5 }),
       (⟨"D", "P"⟩, { tx := "D", rx := "P", status := .proposed, capacity := 9 / 5 })] := by decide +kernel
  refine ⟨fun a => ?_, fun a b => ⟨?_, ?_⟩, fun p => ?_, by decide +kernel⟩
  · rw [Dict.get?_eq_none_iff, hl]
    simp only [Dict.keys, List.map_cons, List.map_nil, List.mem_cons, LinkId.mk.injEq, List.not_mem_nil, or_false]
    rintro (⟨rfl, h⟩ | ⟨rfl, h⟩) <;> revert h <;> decide
  · simp only [flow]; split_ifs <;> norm_num
  · by_cases c : (⟨a, b⟩ : LinkId) = ⟨"P", "D"⟩
    · right
      simp only [LinkId.mk.injEq] at c
      obtain ⟨rfl, rfl⟩ := c
      have : flow ⟨"D", "P"⟩ = 9 / 1000000 := by decide +kernel
      rw [this]
      norm_num
    · left
      simp only [flow, if_neg c]
      split_ifs <;> norm_num
  · rw [Finset.mem_singleton]
    constructor
    · rintro rfl
      exact ⟨"P", "D", { tx := "P", rx := "D", status := .proposed, capacity := 9 / 5 }, rfl, by rw [hl]; rfl, Or.inl rfl⟩
    · rintro ⟨a, b, l, rfl, h, _⟩
      have := (Dict.mem_keys_iff _ _).2 ⟨l, h⟩
      rw [hl] at this
      simp only [Dict.keys, List.map_cons, List.map_nil, List.mem_cons, LinkId.mk.injEq, List.not_mem_nil, or_false] at this
      rcases this with ⟨rfl, rfl⟩ | ⟨rfl, rfl⟩
      · rfl
      · exact Sym2.eq_swap

/-- Two links of which one is used: the other one is not listed. -/
example :
    let flow : LinkId → ℚ := fun i => if i = ⟨"P", "D"⟩ then 1 else 0
    (run {} (twoLinks 4)).linkUtilization flow = [(⟨"P", "D"⟩, 25)] := by decide +kernel

end Verif
