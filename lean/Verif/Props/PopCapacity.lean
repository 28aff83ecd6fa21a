import Verif.Model.Capex
import Verif.Props.Solution
import Mathlib.Algebra.Order.BigOperators.Group.List
import Mathlib.Algebra.BigOperators.Ring.List
import Mathlib.Algebra.Order.Field.Basic
import Mathlib.Tactic.Linarith
import Mathlib.Tactic.NormNum

/-! # C15: the POP capacity bound -/

namespace Verif
open Topology Spec

/-- A link that can carry traffic under the status filter: itself and both ends
pass the filter and, if wireless, it has sectors. -/
def Spec.Usable (t : Topology) (f : Filter) (l : Link) : Prop :=
  f l.status = true ∧
  (∃ s, t.sites.get? l.tx = some s ∧ f s.status = true) ∧
  (∃ s, t.sites.get? l.rx = some s ∧ f s.status = true) ∧
  (l.isWireless = true → l.sectors.isSome = true)

/-- A traffic assignment within the limits: `flow` on each link, `share` the
fraction of time the transmitting sector gives to each link. -/
structure Spec.FlowLimits (t : Topology) (popCap : ℚ) (f : Filter) (flow share : Link → ℚ) :
    Prop where
  unusable : ∀ l ∈ t.links.vals, ¬ Usable t f l → flow l = 0
  share_nonneg : ∀ l ∈ t.links.vals, 0 ≤ share l
  wired : ∀ l ∈ t.links.vals, l.isWireless = false → flow l ≤ l.capacity
  wireless : ∀ l ∈ t.links.vals, l.isWireless = true → flow l ≤ share l * l.capacity
  sector : ∀ k, ((t.links.vals.filter (fun l => l.isWireless ∧ l.sectors.map Prod.fst = some k)).map
    share).sum ≤ 1
  pop : ∀ p, ((t.links.vals.filter (fun l => l.tx = p)).map flow).sum ≤ popCap

/-- The links sent out by POPs. -/
def Spec.popLinks (t : Topology) : List Link :=
  t.links.vals.filter (fun l => (t.sites.get? l.tx).map (fun s => s.siteType) = some .pop)

theorem sum_ite_nodup {κ : Type} [DecidableEq κ] (K : List κ) (a : κ) (v : ℚ) (hn : K.Nodup)
    (ha : a ∈ K) : (K.map (fun k => if a = k then v else 0)).sum = v := by
  induction K with
  | nil => simp at ha
  | cons k K ih =>
    rw [List.nodup_cons] at hn
    simp only [List.map_cons, List.sum_cons]
    by_cases c : a = k
    · subst c
      have : ∀ K' : List κ, a ∉ K' → (K'.map (fun k => if a = k then v else 0)).sum = 0 := by
        intro K' h
        induction K' with
        | nil => simp
        | cons b K' ih2 =>
          simp only [List.mem_cons, not_or] at h
          simp [h.1, ih2 h.2]
      simp [this K hn.1]
    · have : a ∈ K := by simpa [c] using ha
      simp [c, ih hn.2 this]

theorem sum_partition {α κ : Type} [DecidableEq κ] (L : List α) (key : α → κ) (f : α → ℚ)
    (K : List κ) (hn : K.Nodup) (hc : ∀ a ∈ L, key a ∈ K) :
    (L.map f).sum = (K.map (fun k => ((L.filter (fun a => key a = k)).map f).sum)).sum := by
  induction L with
  | nil => simp
  | cons a L ih =>
    have ih := ih (fun b hb => hc b (by simp [hb]))
    have : ∀ k, (((a :: L).filter (fun a => key a = k)).map f).sum =
        (if key a = k then f a else 0) + ((L.filter (fun a => key a = k)).map f).sum := by
      intro k; by_cases c : key a = k <;> simp [c]
    simp only [this, List.sum_map_add, List.map_cons, List.sum_cons]
    rw [sum_ite_nodup K (key a) (f a) hn (hc a (by simp)), ih]

theorem foldl_max_le (as : List ℚ) (a b : ℚ) (h : b = a ∨ b ∈ as) : b ≤ as.foldl max a := by
  induction as generalizing a with
  | nil => simp at h; simp [h]
  | cons c as ih =>
    simp only [List.foldl_cons]
    have key : max a c ≤ as.foldl max (max a c) := by
      have : ∀ (as : List ℚ) (x : ℚ), x ≤ as.foldl max x := by
        intro as
        induction as with
        | nil => intro x; exact le_refl _
        | cons d as ih => intro x; exact le_trans (le_max_left x d) (ih _)
      exact this _ _
    rcases h with rfl | h
    · exact le_trans (le_max_left b c) key
    · rcases List.mem_cons.1 h with rfl | h
      · exact le_trans (le_max_right a b) key
      · exact ih _ (Or.inr h)

theorem le_listMax {as : List ℚ} {b : ℚ} (h : b ∈ as) : b ≤ listMax as := by
  cases as with
  | nil => simp at h
  | cons a as => exact foldl_max_le as a b (by simpa using h)

theorem listMax_mem {as : List ℚ} (h : as ≠ []) : listMax as ∈ as := by
  cases as with
  | nil => simp at h
  | cons a as =>
    simp only [listMax]
    clear h
    induction as generalizing a with
    | nil => simp
    | cons c as ih =>
      simp only [List.foldl_cons]
      have := ih (max a c)
      rcases List.mem_cons.1 this with h | h
      · rw [h]; rcases max_choice a c with h2 | h2 <;> simp [h2]
      · simp [h]

/-- Links counted for POP `p`. -/
def popElig (t : Topology) (f : Filter) (p : SiteId) (l : Link) : Prop :=
  f l.status = true ∧ l.tx = p ∧ (∃ s, t.sites.get? l.tx = some s ∧ s.siteType = .pop ∧
    f s.status = true) ∧ (∃ s, t.sites.get? l.rx = some s ∧ f s.status = true)

def eligWired (t : Topology) (f : Filter) (p : SiteId) (l : Link) : Prop :=
  popElig t f p l ∧ l.isWireless = false

def eligSector (t : Topology) (f : Filter) (p : SiteId) (k : SectorId) (l : Link) : Prop :=
  popElig t f p l ∧ l.isWireless = true ∧ l.sectors.map Prod.fst = some k

theorem Dict.getD_append {κ α : Type} [DecidableEq κ] (d : Dict κ (List α)) (k k' : κ) (a : α) :
    ((d.append k a).get? k').getD [] = (d.get? k').getD [] ++ if k = k' then [a] else [] := by
  unfold Dict.append
  rw [Dict.get?_set]
  split
  · subst_vars; simp
  · simp

open Classical in
theorem popCapStep_spec (t : Topology) (f : Filter) (acc : PopCaps) (l : Link) (p : SiteId)
    (hn : ((acc.sector.get? p).getD []).NodupKeys) :
    ((t.popCapStep f acc l).wired.get? p).getD [] = (acc.wired.get? p).getD [] ++
      (if eligWired t f p l then [l.capacity] else []) ∧
    (∀ k, ((((t.popCapStep f acc l).sector.get? p).getD []).get? k).getD [] =
      (((acc.sector.get? p).getD []).get? k).getD [] ++
      (if eligSector t f p k l then [l.capacity] else [])) ∧
    (((t.popCapStep f acc l).sector.get? p).getD []).NodupKeys := by
  unfold popCapStep
  by_cases c1 : f l.status
  swap
  · simp [c1, eligWired, eligSector, popElig, hn]
  simp only [c1, Bool.not_true, Bool.false_eq_true, if_false]
  cases htx : t.sites.get? l.tx with
  | none => simp [eligWired, eligSector, popElig, hn, htx]
  | some tx =>
  cases hrx : t.sites.get? l.rx with
  | none => simp [eligWired, eligSector, popElig, hn, hrx]
  | some rx =>
  simp only
  by_cases c2 : tx.siteType = .pop
  swap
  · simp [c2, eligWired, eligSector, popElig, hn, htx]
  by_cases c3 : f tx.status
  swap
  · simp [c3, c2, eligWired, eligSector, popElig, hn, htx]
  by_cases c4 : f rx.status
  swap
  · simp [c3, c4, c2, eligWired, eligSector, popElig, hn, hrx]
  by_cases c5 : l.isWireless
  · simp only [c2, c3, c4, c5, ne_eq, not_true_eq_false, if_false, Bool.not_true, Bool.or_self,
      Bool.false_eq_true]
    cases hs : l.sectors with
    | none => simp [eligWired, eligSector, hn, hs, c5]
    | some q =>
      obtain ⟨k0, k1⟩ := q
      refine ⟨by simp [eligWired, c5], ?_, ?_⟩
      · intro k
        dsimp only
        rw [Dict.get?_set]
        by_cases c6 : l.tx = p
        · subst c6
          simp only [if_pos, Option.getD_some, Dict.getD_append]
          simp [eligSector, popElig, c1, htx, hrx, c2, c3, c4, c5, hs]
        · simp [c6, eligSector, popElig]
      · dsimp only
        rw [Dict.get?_set]
        by_cases c6 : l.tx = p
        · subst c6
          simp only [if_pos, Option.getD_some]
          exact hn.set _ _
        · simpa [c6] using hn
  · have c5 : l.isWireless = false := by simpa using c5
    simp only [c2, c3, c4, c5, ne_eq, not_true_eq_false, if_false, Bool.not_true, Bool.or_self,
      Bool.false_eq_true, Bool.not_false, if_true, Dict.getD_append]
    refine ⟨?_, ?_, hn⟩
    · congr 1
      by_cases c6 : l.tx = p
      · simp [c6, eligWired, popElig, c1, htx, hrx, c2, c3, c4, c5]
        subst c6; simp [htx, c2, c3]
      · simp [c6, eligWired, popElig]
    · simp [eligSector, c5]

open Classical in
theorem popCap_fold (t : Topology) (f : Filter) (p : SiteId) (L : List Link) (acc : PopCaps)
    (hn : ((acc.sector.get? p).getD []).NodupKeys) :
    ((L.foldl (t.popCapStep f) acc).wired.get? p).getD [] = (acc.wired.get? p).getD [] ++
      (L.filter (eligWired t f p)).map (·.capacity) ∧
    (∀ k, ((((L.foldl (t.popCapStep f) acc).sector.get? p).getD []).get? k).getD [] =
      (((acc.sector.get? p).getD []).get? k).getD [] ++
      (L.filter (eligSector t f p k)).map (·.capacity)) ∧
    (((L.foldl (t.popCapStep f) acc).sector.get? p).getD []).NodupKeys := by
  induction L generalizing acc with
  | nil => simp [hn]
  | cons l L ih =>
    obtain ⟨h1, h2, h3⟩ := popCapStep_spec t f acc l p hn
    obtain ⟨k1, k2, k3⟩ := ih _ h3
    simp only [List.foldl_cons]
    refine ⟨?_, ?_, k3⟩
    · rw [k1, h1]
      by_cases c : eligWired t f p l <;> simp [c]
    · intro k
      rw [k2, h2]
      by_cases c : eligSector t f p k l <;> simp [c]

theorem Dict.vals_eq_map {κ ν : Type} [DecidableEq κ] {d : Dict κ (List ν)} (hn : d.NodupKeys) :
    d.vals = d.keys.map (fun k => (d.get? k).getD []) := by
  unfold Dict.vals Dict.keys
  rw [List.map_map]
  apply List.map_congr_left
  rintro ⟨k, v⟩ hp
  simp [(Dict.mem_iff_get? hn k v).1 hp]

theorem sum_share_le (L : List Link) (share : Link → ℚ) (M : ℚ) (hs : ∀ l ∈ L, 0 ≤ share l)
    (hM : ∀ l ∈ L, l.capacity ≤ M) :
    (L.map (fun l => share l * l.capacity)).sum ≤ (L.map share).sum * M := by
  induction L with
  | nil => simp
  | cons l L ih =>
    have := ih (fun x hx => hs x (by simp [hx])) (fun x hx => hM x (by simp [hx]))
    have h1 := mul_le_mul_of_nonneg_left (hM l (by simp)) (hs l (by simp))
    simp only [List.map_cons, List.sum_cons]
    linarith

theorem sum_filter_zero {α : Type} (L : List α) (f : α → ℚ) (p : α → Bool)
    (h : ∀ a ∈ L, p a = false → f a = 0) : ((L.filter p).map f).sum = (L.map f).sum := by
  induction L with
  | nil => simp
  | cons a L ih =>
    have ih := ih (fun b hb => h b (by simp [hb]))
    cases c : p a
    · simp [c, ih, h a (by simp) c]
    · simp [c, ih]

theorem sum_filter_ite {α : Type} (L : List α) (f : α → ℚ) (p : α → Bool) :
    ((L.filter p).map f).sum = (L.map (fun a => if p a = true then f a else 0)).sum := by
  induction L with
  | nil => simp
  | cons a L ih => cases c : p a <;> simp [c, ih]

theorem sum_filter_le {α : Type} (L : List α) (f : α → ℚ) (p q : α → Bool)
    (hf : ∀ a ∈ L, 0 ≤ f a) (h : ∀ a ∈ L, p a = true → q a = true) :
    ((L.filter p).map f).sum ≤ ((L.filter q).map f).sum := by
  induction L with
  | nil => simp
  | cons a L ih =>
    have ih := ih (fun b hb => hf b (by simp [hb])) (fun b hb => h b (by simp [hb]))
    have h0 := hf a (by simp)
    cases c : p a
    · cases c2 : q a
      · simpa [c, c2] using ih
      · simp [c, c2]; linarith
    · have c2 := h a (by simp) c
      simp [c, c2, ih]

theorem mem_allPopIds (t : Topology) (hn : t.sites.NodupKeys) (p : SiteId) :
    p ∈ t.popIds (fun _ => true) ↔ (t.sites.get? p).map (fun s => s.siteType) = some .pop := by
  unfold popIds
  simp only [Bool.true_and, List.mem_map, List.mem_filter, beq_iff_eq, Prod.exists, exists_and_right,
    exists_eq_right, Option.map_eq_some_iff]
  constructor
  · rintro ⟨s, h1, h2⟩; exact ⟨s, (Dict.mem_iff_get? hn _ _).1 h1, h2⟩
  · rintro ⟨s, h1, h2⟩; exact ⟨s, (Dict.mem_iff_get? hn _ _).2 h1, h2⟩

/-- Links out of `p` counted for sector `k`. -/
noncomputable def popSectorLinks (t : Topology) (f : Filter) (p : SiteId) (k : SectorId) :
    List Link := by
  classical exact t.links.vals.filter (eligSector t f p k)

/-- Wired links out of `p` that are counted. -/
noncomputable def popWiredLinks (t : Topology) (f : Filter) (p : SiteId) : List Link := by
  classical exact t.links.vals.filter (eligWired t f p)

/-- The dictionaries hold the sectors of the counted links, and the capacity
out of `p` is a sum over them. -/
theorem pop_caps (t : Topology) (f : Filter) (p : SiteId) :
    ∃ K : List SectorId, K.Nodup ∧
      (∀ l k, l ∈ popSectorLinks t f p k → k ∈ K) ∧
      (((((t.links.vals.foldl (t.popCapStep f) {}).sector.get? p).getD []).vals.map listMax).sum +
        (((t.links.vals.foldl (t.popCapStep f) {}).wired.get? p).getD []).sum) =
      (K.map (fun k => listMax ((popSectorLinks t f p k).map (·.capacity)))).sum +
        ((popWiredLinks t f p).map (·.capacity)).sum := by
  classical
  obtain ⟨h1, h2, h3⟩ := popCap_fold t f p t.links.vals {} (by simp [Dict.NodupKeys, Dict.keys])
  generalize t.links.vals.foldl (t.popCapStep f) {} = acc at *
  simp only [Dict.get?_nil, Option.getD_none, List.nil_append] at h1 h2
  generalize hd : (acc.sector.get? p).getD [] = d at *
  refine ⟨d.keys, h3, ?_, ?_⟩
  · intro l k hl
    by_contra hcon
    rw [← Dict.get?_eq_none_iff] at hcon
    have := h2 k
    rw [hcon] at this
    simp only [Option.getD_none] at this
    have e : popSectorLinks t f p k = [] := by
      unfold popSectorLinks; simpa using this.symm
    rw [e] at hl; simp at hl
  · rw [h1, Dict.vals_eq_map h3, List.map_map]
    congr 2
    apply List.map_congr_left
    intro k _
    simp only [Function.comp_apply, h2 k]
    congr 2

/-- Splitting the flow out of a POP by sector. -/
theorem pop_split (t : Topology) (f : Filter) (flow : Link → ℚ) (p : SiteId)
    (hp : (t.sites.get? p).map (fun s => s.siteType) = some .pop)
    (hu : ∀ l ∈ t.links.vals, ¬ Usable t f l → flow l = 0) (K : List SectorId) (hK : K.Nodup)
    (hcov : ∀ l k, l ∈ popSectorLinks t f p k → k ∈ K) :
    ((t.links.vals.filter (fun l => l.tx = p)).map flow).sum =
      (K.map (fun k => ((popSectorLinks t f p k).map flow).sum)).sum +
        ((popWiredLinks t f p).map flow).sum := by
  classical
  have hU : ∀ l ∈ t.links.vals, l.tx = p → Usable t f l → popElig t f p l := by
    rintro l hl rfl ⟨u1, ⟨s, u2, u3⟩, u4, _⟩
    rw [u2] at hp
    exact ⟨u1, rfl, ⟨s, u2, by simpa using hp, u3⟩, u4⟩
  have hsplit : ((t.links.vals.filter (fun l => l.tx = p)).map flow).sum =
      ((t.links.vals.filter (fun l => popElig t f p l ∧ l.isWireless = true ∧
        l.sectors.isSome)).map flow).sum +
      ((t.links.vals.filter (eligWired t f p)).map flow).sum := by
    rw [sum_filter_ite, sum_filter_ite, sum_filter_ite, ← List.sum_map_add]
    congr 1
    apply List.map_congr_left
    intro l hl
    by_cases c : l.tx = p
    · by_cases cu : Usable t f l
      · have he := hU l hl c cu
        cases cw : l.isWireless
        · simp [c, eligWired, he, cw]
        · have := cu.2.2.2 cw
          simp [c, eligWired, he, cw, this]
      · simp [hu l hl cu]
    · have : ¬ popElig t f p l := fun h => c h.2.1
      simp [c, eligWired, this]
  rw [hsplit]
  have hcover : ∀ l ∈ t.links.vals.filter (fun l => popElig t f p l ∧ l.isWireless = true ∧
      l.sectors.isSome), l.sectors.map Prod.fst ∈ K.map some := by
    intro l hl
    simp only [List.mem_filter, decide_eq_true_eq] at hl
    obtain ⟨hl, he, hw, hsome⟩ := hl
    obtain ⟨⟨k, k'⟩, hk⟩ := Option.isSome_iff_exists.1 hsome
    rw [hk]
    simp only [Option.map_some, List.mem_map, Option.some.injEq, exists_eq_right]
    apply hcov l k
    unfold popSectorLinks
    simp [hl, eligSector, he, hw, hk]
  rw [sum_partition _ (fun l : Link => l.sectors.map Prod.fst) flow (K.map some)
    (hK.map (Option.some_injective _)) hcover, List.map_map]
  congr 2
  apply List.map_congr_left
  intro k hk
  simp only [Function.comp_apply]
  congr 2
  unfold popSectorLinks
  rw [List.filter_filter]
  apply List.filter_congr
  intro l _
  rw [← Bool.decide_and, decide_eq_decide]
  unfold eligSector
  constructor
  · rintro ⟨a1, a2, a3, _⟩; exact ⟨a2, a3, a1⟩
  · rintro ⟨a2, a3, a1⟩
    refine ⟨a1, a2, a3, ?_⟩
    cases h : l.sectors with
    | none => rw [h] at a1; simp at a1
    | some _ => rfl

theorem mem_popSectorLinks (t : Topology) (f : Filter) (p : SiteId) (k : SectorId) (l : Link) :
    l ∈ popSectorLinks t f p k ↔ l ∈ t.links.vals ∧ eligSector t f p k l := by
  unfold popSectorLinks; simp

theorem mem_popWiredLinks (t : Topology) (f : Filter) (p : SiteId) (l : Link) :
    l ∈ popWiredLinks t f p ↔ l ∈ t.links.vals ∧ eligWired t f p l := by
  unfold popWiredLinks; simp

/-- Bound for one POP. -/
theorem pop_bound (t : Topology) (popCap : ℚ) (f : Filter) (flow share : Link → ℚ) (p : SiteId)
    (hp : (t.sites.get? p).map (fun s => s.siteType) = some .pop)
    (hc : ∀ l ∈ t.links.vals, 0 ≤ l.capacity) (h : FlowLimits t popCap f flow share) :
    ((t.links.vals.filter (fun l => l.tx = p)).map flow).sum ≤
      ((((t.links.vals.foldl (t.popCapStep f) {}).sector.get? p).getD []).vals.map listMax).sum +
        (((t.links.vals.foldl (t.popCapStep f) {}).wired.get? p).getD []).sum := by
  obtain ⟨K, hK, hcov, e⟩ := pop_caps t f p
  rw [e, pop_split t f flow p hp h.unusable K hK hcov]
  apply add_le_add
  · apply List.sum_le_sum
    intro k hk
    generalize hE : popSectorLinks t f p k = E
    have hmem : ∀ l ∈ E, l ∈ t.links.vals ∧ eligSector t f p k l := by
      intro l hl; rw [← hE] at hl; exact (mem_popSectorLinks ..).1 hl
    have hM : ∀ l ∈ E, l.capacity ≤ listMax (E.map (·.capacity)) := fun l hl =>
      le_listMax (List.mem_map.2 ⟨l, hl, rfl⟩)
    have hM0 : 0 ≤ listMax (E.map (·.capacity)) := by
      by_cases c : E = []
      · simp [c, listMax]
      · have := listMax_mem (as := E.map (·.capacity)) (by simpa using c)
        obtain ⟨l, hl, e⟩ := List.mem_map.1 this
        rw [← e]; exact hc l (hmem l hl).1
    have s1 : (E.map flow).sum ≤ (E.map (fun l => share l * l.capacity)).sum := by
      apply List.sum_le_sum
      intro l hl
      exact h.wireless l (hmem l hl).1 (hmem l hl).2.2.1
    have s2 := sum_share_le E share _ (fun l hl => h.share_nonneg l (hmem l hl).1) hM
    have s3 : (E.map share).sum ≤ 1 := by
      refine le_trans ?_ (h.sector k)
      rw [← hE]
      unfold popSectorLinks
      apply sum_filter_le _ _ _ _ h.share_nonneg
      intro l _ hl
      simp only [decide_eq_true_eq] at hl ⊢
      exact ⟨hl.2.1, hl.2.2⟩
    have s4 := mul_le_mul_of_nonneg_right s3 hM0
    linarith
  · apply List.sum_le_sum
    intro l hl
    have := (mem_popWiredLinks ..).1 hl
    exact h.wired l this.1 this.2.2

theorem maxPopCapacity_eq (t : Topology) (popCap : ℚ) (f : Filter) :
    t.maxPopCapacity popCap f = ((t.popIds (fun _ => true)).map (fun p =>
      min (((((t.links.vals.foldl (t.popCapStep f) {}).sector.get? p).getD []).vals.map listMax).sum +
        (((t.links.vals.foldl (t.popCapStep f) {}).wired.get? p).getD []).sum) popCap)).sum := by
  unfold maxPopCapacity
  dsimp only
  congr 1
  apply List.map_congr_left
  intro p _
  generalize (t.links.vals.foldl (t.popCapStep f) {}) = acc
  cases acc.sector.get? p <;> cases acc.wired.get? p <;> rfl

/-- **C15.** No traffic assignment within the limits carries more out of the
POPs, over links of the topology, than `compute_max_pop_capacity_of_topology`. -/
theorem C15_pop_capacity_bound (ops : List Op) (popCap : ℚ) (f : Filter) (flow share : Link → ℚ)
    (hc : ∀ l ∈ (run {} ops).links.vals, 0 ≤ l.capacity)
    (h : FlowLimits (run {} ops) popCap f flow share) :
    ((popLinks (run {} ops)).map flow).sum ≤ (run {} ops).maxPopCapacity popCap f := by
  have inv := Inv.empty.run ops
  generalize run {} ops = t at *
  have hn := inv.nd_sites
  have hnd : (t.popIds (fun _ => true)).Nodup := by
    unfold popIds
    exact hn.sublist (List.Sublist.map _ List.filter_sublist)
  rw [sum_partition (popLinks t) (fun l => l.tx) flow _ hnd (by
    intro l hl
    simp only [popLinks, List.mem_filter, decide_eq_true_eq] at hl
    exact (mem_allPopIds t hn _).2 hl.2)]
  rw [maxPopCapacity_eq]
  apply List.sum_le_sum
  intro p hp
  have hpp := (mem_allPopIds t hn p).1 hp
  have e : (popLinks t).filter (fun l => l.tx = p) = t.links.vals.filter (fun l => l.tx = p) := by
    unfold popLinks
    rw [List.filter_filter]
    apply List.filter_congr
    intro l _
    by_cases c : l.tx = p
    · subst c; simp [hpp]
    · simp [c]
  rw [e]
  exact le_min (pop_bound t popCap f flow share p hpp hc h) (h.pop p)

theorem Dict.nodup_vals_of_inj {κ ν : Type} [DecidableEq κ] {d : Dict κ ν} (hn : d.NodupKeys)
    (g : ν → κ) (hg : ∀ k v, d.get? k = some v → k = g v) : d.vals.Nodup := by
  unfold Dict.vals
  refine List.Nodup.map_on ?_ (List.Nodup.of_map _ hn)
  rintro ⟨k, v⟩ h ⟨k', v'⟩ h' rfl
  have e := hg _ _ ((Dict.mem_iff_get? hn _ _).1 h)
  have e' := hg _ _ ((Dict.mem_iff_get? hn _ _).1 h')
  simp [e, ← e']

theorem sum_pick {α : Type} [DecidableEq α] (L : List α) (hn : L.Nodup) (f : α → ℚ)
    (o : Option α) (ho : ∀ a, o = some a → a ∈ L) :
    (L.map (fun a => if o = some a then f a else 0)).sum = (o.map f).getD 0 := by
  cases o with
  | none => simp
  | some a =>
    have e : (L.map (fun x => if some a = some x then f x else 0)) =
        (L.map (fun x => if a = x then f a else 0)) := by
      apply List.map_congr_left
      intro x _
      simp only [Option.some.injEq]
      split
      · subst_vars; rfl
      · rfl
    rw [e, sum_ite_nodup L a (f a) hn (ho a rfl)]; rfl

/-- The link chosen to be served all the time by sector `k` of POP `p`. -/
noncomputable def popPick (t : Topology) (f : Filter) (p : SiteId) (k : SectorId) : Option Link :=
  (popSectorLinks t f p k).find?
    (fun l => l.capacity = listMax ((popSectorLinks t f p k).map (·.capacity)))

/-- **C15 (tight).** The bound is exact: some traffic assignment within the
limits carries exactly `compute_max_pop_capacity_of_topology` out of the POPs. -/
theorem C15_pop_capacity_attained (ops : List Op) (popCap : ℚ) (f : Filter) (h0 : 0 ≤ popCap)
    (hc : ∀ l ∈ (run {} ops).links.vals, 0 ≤ l.capacity)
    (hsec : ∀ l ∈ (run {} ops).links.vals, ∀ k k', l.sectors = some (k, k') → k.site = l.tx) :
    ∃ flow share, FlowLimits (run {} ops) popCap f flow share ∧
      (∀ l ∈ (run {} ops).links.vals, 0 ≤ flow l) ∧
      ((popLinks (run {} ops)).map flow).sum = (run {} ops).maxPopCapacity popCap f := by
  classical
  have inv := Inv.empty.run ops
  generalize run {} ops = t at *
  have hn := inv.nd_sites
  have hlv : t.links.vals.Nodup :=
    Dict.nodup_vals_of_inj inv.nd_links (fun l => ⟨l.tx, l.rx⟩) inv.link_id
  have hpickmem : ∀ p k l, popPick t f p k = some l → l ∈ popSectorLinks t f p k ∧
      l.capacity = listMax ((popSectorLinks t f p k).map (·.capacity)) := by
    intro p k l h
    unfold popPick at h
    exact ⟨List.mem_of_find?_eq_some h, by simpa using List.find?_some h⟩
  let share : Link → ℚ := fun l =>
    if ∃ k, eligSector t f l.tx k l ∧ popPick t f l.tx k = some l then 1 else 0
  let raw : Link → ℚ := fun l => if eligWired t f l.tx l then l.capacity else share l * l.capacity
  let tot : SiteId → ℚ := fun p => ((t.links.vals.filter (fun l => l.tx = p)).map raw).sum
  let scale : SiteId → ℚ := fun p => if tot p ≤ popCap then 1 else popCap / tot p
  have hshare : ∀ l, share l = 0 ∨ share l = 1 := by
    intro l; simp only [share]; split <;> simp
  have hraw0 : ∀ l ∈ t.links.vals, 0 ≤ raw l := by
    intro l hl
    have := hc l hl
    simp only [raw]
    split
    · exact this
    · rcases hshare l with h | h <;> simp [h, this]
  have hscale : ∀ p, 0 ≤ scale p ∧ scale p ≤ 1 ∧ tot p * scale p = min (tot p) popCap := by
    intro p
    simp only [scale]
    split
    · rename_i h; simp [h]
    · rename_i h
      push Not at h
      have hpos : 0 < tot p := lt_of_le_of_lt h0 h
      refine ⟨div_nonneg h0 hpos.le, (div_le_one hpos).2 h.le, ?_⟩
      rw [mul_div_cancel₀ _ hpos.ne', min_eq_right h.le]
  have hrawU : ∀ l ∈ t.links.vals, ¬ Usable t f l → raw l = 0 := by
    intro l hl hu
    have key : ∀ hE : popElig t f l.tx l, (l.isWireless = true → l.sectors.isSome = true) → False := by
      rintro ⟨e1, -, ⟨s, e2, -, e3⟩, e4⟩ hw
      exact hu ⟨e1, ⟨s, e2, e3⟩, e4, hw⟩
    have h1 : ¬ eligWired t f l.tx l := by
      rintro ⟨he, hw⟩; exact key he (by simp [hw])
    have h2 : share l = 0 := by
      simp only [share]; rw [if_neg]
      rintro ⟨k, ⟨he, hw, hk⟩, -⟩
      refine key he (fun _ => ?_)
      cases hs : l.sectors
      · simp [hs] at hk
      · rfl
    simp [raw, h1, h2]
  have htot : ∀ p, tot p * scale p =
      ((t.links.vals.filter (fun l => l.tx = p)).map (fun l => raw l * scale l.tx)).sum := by
    intro p
    simp only [tot]
    rw [← List.sum_map_mul_right]
    congr 1
    apply List.map_congr_left
    intro l hl
    have : l.tx = p := by simpa using (List.mem_filter.1 hl).2
    rw [this]
  have hsharewired : ∀ l, l.isWireless = false → share l = 0 := by
    intro l hw
    simp only [share]; rw [if_neg]
    rintro ⟨k, ⟨-, hw', -⟩, -⟩; simp [hw] at hw'
  refine ⟨fun l => raw l * scale l.tx, share, ?_, ?_, ?_⟩
  · refine ⟨?_, ?_, ?_, ?_, ?_, ?_⟩
    · intro l hl hu; simp [hrawU l hl hu]
    · intro l _; rcases hshare l with h | h <;> simp [h]
    · intro l hl hw
      have h1 : raw l ≤ l.capacity := by
        simp only [raw]; split
        · exact le_refl _
        · simp [hsharewired l hw, hc l hl]
      have := mul_le_of_le_one_right (hraw0 l hl) (hscale l.tx).2.1
      exact le_trans this h1
    · intro l hl hw
      have h1 : raw l = share l * l.capacity := by
        simp only [raw]; rw [if_neg]; rintro ⟨-, hw'⟩; simp [hw] at hw'
      have := mul_le_of_le_one_right (hraw0 l hl) (hscale l.tx).2.1
      rw [← h1]; exact this
    · intro k
      have e : ∀ l ∈ t.links.vals.filter (fun l => l.isWireless ∧ l.sectors.map Prod.fst = some k),
          share l ≤ if popPick t f k.site k = some l then 1 else 0 := by
        intro l hl
        simp only [List.mem_filter, decide_eq_true_eq] at hl
        obtain ⟨hl, hw, hk⟩ := hl
        simp only [share]
        by_cases c : ∃ k, eligSector t f l.tx k l ∧ popPick t f l.tx k = some l
        · rw [if_pos c]
          obtain ⟨k', he, hp⟩ := c
          have : k' = k := by have := he.2.2; rw [hk] at this; simpa using this.symm
          subst this
          have : k'.site = l.tx := by
            cases hs : l.sectors with
            | none => simp [hs] at hk
            | some q => obtain ⟨q1, q2⟩ := q; rw [hs] at hk; simp at hk; subst hk; exact hsec l hl _ _ hs
          rw [this, if_pos hp]
        · rw [if_neg c]; split <;> simp
      refine le_trans (List.sum_le_sum e) ?_
      by_cases c : ∃ l ∈ t.links.vals.filter (fun l => l.isWireless ∧ l.sectors.map Prod.fst = some k),
          popPick t f k.site k = some l
      · obtain ⟨l, hl, hp⟩ := c
        rw [hp]
        rw [sum_pick _ (hlv.filter _) (fun _ => 1) (some l) (by rintro a ⟨⟩; exact hl)]
        simp
      · have : ∀ l ∈ t.links.vals.filter (fun l => l.isWireless ∧ l.sectors.map Prod.fst = some k),
            (if popPick t f k.site k = some l then (1 : ℚ) else 0) = 0 := by
          intro l hl; rw [if_neg]; intro h; exact c ⟨l, hl, h⟩
        rw [List.map_congr_left this]
        simp
    · intro p
      rw [← htot, (hscale p).2.2]; exact min_le_right _ _
  · intro l hl; exact mul_nonneg (hraw0 l hl) (hscale l.tx).1
  · have hnd : (t.popIds (fun _ => true)).Nodup := by
      unfold popIds
      exact hn.sublist (List.Sublist.map _ List.filter_sublist)
    rw [sum_partition (popLinks t) (fun l => l.tx) _ _ hnd (by
      intro l hl
      simp only [popLinks, List.mem_filter, decide_eq_true_eq] at hl
      exact (mem_allPopIds t hn _).2 hl.2)]
    rw [maxPopCapacity_eq]
    congr 1
    apply List.map_congr_left
    intro p hp
    have hpp := (mem_allPopIds t hn p).1 hp
    have e : (popLinks t).filter (fun l => l.tx = p) = t.links.vals.filter (fun l => l.tx = p) := by
      unfold popLinks
      rw [List.filter_filter]
      apply List.filter_congr
      intro l _
      by_cases c : l.tx = p
      · subst c; simp [hpp]
      · simp [c]
    rw [e, ← htot, (hscale p).2.2]
    obtain ⟨K, hK, hcov, e⟩ := pop_caps t f p
    rw [e]
    congr 1
    simp only [tot]
    rw [pop_split t f raw p hpp hrawU K hK hcov]
    congr 2
    · apply List.map_congr_left
      intro k hk
      have hEn : (popSectorLinks t f p k).Nodup := by unfold popSectorLinks; exact hlv.filter _
      have e1 : (popSectorLinks t f p k).map raw = (popSectorLinks t f p k).map
          (fun l => if popPick t f p k = some l then l.capacity else 0) := by
        apply List.map_congr_left
        intro l hl
        obtain ⟨hl, he⟩ := (mem_popSectorLinks ..).1 hl
        have htx : l.tx = p := he.1.2.1
        have hnw : ¬ eligWired t f l.tx l := by rintro ⟨-, hw⟩; simp [he.2.1] at hw
        simp only [raw, if_neg hnw, share]
        by_cases c : popPick t f p k = some l
        · rw [if_pos c, if_pos ⟨k, htx ▸ he, htx ▸ c⟩, one_mul]
        · rw [if_neg c, if_neg, zero_mul]
          rintro ⟨k', he', hp'⟩
          have : k' = k := by have := he'.2.2; rw [he.2.2] at this; simpa using this.symm
          subst this; exact c (htx ▸ hp')
      rw [e1, sum_pick _ hEn (fun l => l.capacity) _ (fun a ha => (hpickmem p k a ha).1)]
      cases hpk : popPick t f p k with
      | some l => simp [(hpickmem p k l hpk).2]
      | none =>
        by_cases c : popSectorLinks t f p k = []
        · simp [c, listMax]
        · have := listMax_mem (as := (popSectorLinks t f p k).map (·.capacity)) (by simpa using c)
          obtain ⟨l, hl, hle⟩ := List.mem_map.1 this
          unfold popPick at hpk
          rw [List.find?_eq_none] at hpk
          exact absurd (by simpa using hle) (hpk l hl)
    · apply List.map_congr_left
      intro l hl
      obtain ⟨_, he⟩ := (mem_popWiredLinks ..).1 hl
      have htx : l.tx = p := he.1.2.1
      simp only [raw]; rw [if_pos (htx ▸ he)]

/-- Two links on one sector, one wired link, POP capacity cutting the total. -/
def popDemo : Topology := run {} [
  .addSite { id := "p", siteType := .pop, status := .candidate } false,
  .addSite { id := "a", siteType := .dn, status := .candidate } false,
  .addSite { id := "b", siteType := .dn, status := .candidate } false,
  .addSite { id := "c", siteType := .dn, status := .candidate } false,
  .addSector { site := "p", node := 0, pos := 0 },
  .addLink { tx := "p", rx := "a", sectors := some (⟨"p", 0, 0, .dn⟩, ⟨"a", 0, 0, .dn⟩), capacity := 3 },
  .addLink { tx := "p", rx := "b", sectors := some (⟨"p", 0, 0, .dn⟩, ⟨"b", 0, 0, .dn⟩), capacity := 5 },
  .addLink { tx := "p", rx := "c", isWireless := false, capacity := 4 }]

example : popDemo.maxPopCapacity 100 (fun _ => true) = 9 ∧
    popDemo.maxPopCapacity 7 (fun _ => true) = 7 ∧
    (∀ l ∈ popDemo.links.vals, 0 ≤ l.capacity) ∧
    (∀ l ∈ popDemo.links.vals, ∀ k k', l.sectors = some (k, k') → k.site = l.tx) := by
  refine ⟨by decide +kernel, by decide +kernel, by decide +kernel, ?_⟩
  have : ∀ l ∈ popDemo.links.vals, (l.sectors.map (fun q => q.1.site)).getD l.tx = l.tx := by
    decide +kernel
  intro l hl k k' h; simpa [h] using this l hl

/-- Sending 3/5 of the time on the faster link and 2/5 on the slower one is within the limits. -/
example : FlowLimits popDemo 100 (fun _ => true)
    (fun l => if l.rx = "a" then 6/5 else if l.rx = "b" then 3 else 4)
    (fun l => if l.rx = "a" then 2/5 else 3/5) := by
  have hl : popDemo.links.vals = [
    { tx := "p", rx := "a", sectors := some (⟨"p", 0, 0, .dn⟩, ⟨"a", 0, 0, .dn⟩), capacity := 3 },
    { tx := "p", rx := "b", sectors := some (⟨"p", 0, 0, .dn⟩, ⟨"b", 0, 0, .dn⟩), capacity := 5 },
    { tx := "p", rx := "c", isWireless := false, capacity := 4 }] := by decide +kernel
  have hs : ∀ l ∈ popDemo.links.vals, Usable popDemo (fun _ => true) l := by
    intro l hl'
    have h1 : ∀ l ∈ popDemo.links.vals, (popDemo.sites.get? l.tx).isSome = true ∧
      (popDemo.sites.get? l.rx).isSome = true ∧ (l.isWireless = true → l.sectors.isSome = true) := by
      decide +kernel
    obtain ⟨a, b, c⟩ := h1 l hl'
    obtain ⟨x, hx⟩ := Option.isSome_iff_exists.1 a
    obtain ⟨y, hy⟩ := Option.isSome_iff_exists.1 b
    exact ⟨rfl, ⟨x, hx, rfl⟩, ⟨y, hy, rfl⟩, c⟩
  refine ⟨fun l h hu => absurd (hs l h) hu, ?_, ?_, ?_, ?_, ?_⟩
  · rw [hl]; decide +kernel
  · rw [hl]; decide +kernel
  · rw [hl]; decide +kernel
  · intro k; rw [hl]
    by_cases c : (⟨"p", 0, 0, .dn⟩ : SectorId) = k
    · simp [c]; norm_num
    · simp [c]
  · intro p; rw [hl]
    by_cases c : "p" = p
    · simp [c]; norm_num
    · simp [c]

end Verif
