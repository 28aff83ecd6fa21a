import Verif.Lemmas.Statistics
import Verif.Props.PopCapacity

/-! # The links counted per sector -/

namespace Verif
open Spec Topology

/-- The dictionary holds for each sector the hashes `R` gives. -/
def Holds (d : Dict SectorId (List String)) (K : List SectorId) (R : SectorId → String → Prop) : Prop :=
  d.NodupKeys ∧ d.keys = K ∧ ∀ s xs, d.get? s = some xs → xs.Nodup ∧ ∀ h, h ∈ xs ↔ R s h

theorem addHash_holds {d K R} (hd : Holds d K R) {a : SectorId} (h : String) (ha : a ∈ K) :
    ∃ d', addHash d a h = .ok d' ∧ Holds d' K (fun s g => R s g ∨ s = a ∧ g = h) := by
  obtain ⟨h1, h2, h3⟩ := hd
  rw [← h2] at ha
  obtain ⟨xs, hx⟩ := (Dict.mem_keys_iff _ _).1 ha
  unfold addHash
  rw [hx]
  dsimp only
  refine ⟨_, rfl, h1.set _ _, ?_, ?_⟩
  · rw [Dict.keys_set, if_pos ((Dict.has_iff _ _).2 ⟨xs, hx⟩), h2]
  · intro s ys hs
    rw [Dict.get?_set] at hs
    split at hs
    · rename_i e
      subst e
      simp only [Option.some.injEq] at hs
      subst hs
      obtain ⟨k1, k2⟩ := h3 _ _ hx
      unfold setAdd
      split
      · rename_i c
        have c := List.contains_iff_mem.1 c
        refine ⟨k1, fun g => ?_⟩
        rw [k2]
        constructor
        · exact Or.inl
        · rintro (g' | ⟨_, rfl⟩)
          · exact g'
          · exact (k2 _).1 c
      · rename_i c
        have c : h ∉ xs := fun h' => c (List.contains_iff_mem.2 h')
        refine ⟨List.nodup_cons.2 ⟨c, k1⟩, fun g => ?_⟩
        rw [List.mem_cons, k2]
        constructor
        · rintro (rfl | g')
          · exact Or.inr ⟨rfl, rfl⟩
          · exact Or.inl g'
        · rintro (g' | ⟨_, rfl⟩)
          · exact Or.inr g'
          · exact Or.inl rfl
    · rename_i e
      obtain ⟨k1, k2⟩ := h3 _ _ hs
      refine ⟨k1, fun g => ?_⟩
      rw [k2]
      constructor
      · exact Or.inl
      · rintro (g' | ⟨e', _⟩)
        · exact g'
        · exact absurd e'.symm e

theorem addHash_error {d K R} (hd : Holds d K R) {a : SectorId} (h : String) (ha : a ∉ K) :
    addHash d a h = .error .keyError := by
  rw [← hd.2.1, ← Dict.get?_eq_none_iff] at ha
  unfold addHash
  rw [ha]

/-- A link of the type that is in use and has a sector on the list. -/
def TouchesBackhaul (t : Topology) (l : Link) (s : SectorId) : Prop :=
  l.status.active = true ∧ t.linkType l = .wirelessBackhaul ∧ ∃ a b, l.sectors = some (a, b) ∧ (s = a ∨ s = b)

def TouchesAccess (t : Topology) (l : Link) (s : SectorId) : Prop :=
  l.status.active = true ∧ t.linkType l = .wirelessAccess ∧ ∃ a b, l.sectors = some (a, b) ∧ s = a

/-- The loop gets past the link. -/
def Passes (t : Topology) (K : List SectorId) (l : Link) : Prop :=
  l.status.active = true → ∃ a b, l.sectors = some (a, b) ∧
    (t.linkType l = .wirelessBackhaul → a ∈ K ∧ b ∈ K) ∧ (t.linkType l = .wirelessAccess → a ∈ K)

theorem Holds.congr {d K R R'} (h : Holds d K R) (e : ∀ s g, R s g ↔ R' s g) : Holds d K R' :=
  ⟨h.1, h.2.1, fun s xs hs => ⟨(h.2.2 s xs hs).1, fun g => ((h.2.2 s xs hs).2 g).trans (e s g)⟩⟩

theorem countLink_spec {t : Topology} {K : List SectorId} {P : List Link} {d : SectorLinks}
    (h1 : Holds d.1 K (fun s g => ∃ l ∈ P, TouchesBackhaul t l s ∧ t.linkHash l = g))
    (h2 : Holds d.2 K (fun s g => ∃ l ∈ P, TouchesAccess t l s ∧ t.linkHash l = g)) (l : Link) :
    (Passes t K l → ∃ d', t.countLink d l = .ok d' ∧
      Holds d'.1 K (fun s g => ∃ k ∈ l :: P, TouchesBackhaul t k s ∧ t.linkHash k = g) ∧
      Holds d'.2 K (fun s g => ∃ k ∈ l :: P, TouchesAccess t k s ∧ t.linkHash k = g)) ∧
    (¬ Passes t K l → ∃ e, t.countLink d l = .error e) := by
  have same1 : ∀ {d'}, Holds d' K (fun s g => ∃ l ∈ P, TouchesBackhaul t l s ∧ t.linkHash l = g) →
      (∀ s, ¬ TouchesBackhaul t l s) →
      Holds d' K (fun s g => ∃ k ∈ l :: P, TouchesBackhaul t k s ∧ t.linkHash k = g) := by
    intro d' h hn
    refine h.congr fun s g => ?_
    constructor
    · rintro ⟨k, hk, e⟩; exact ⟨k, List.mem_cons_of_mem _ hk, e⟩
    · rintro ⟨k, hk, e1, e2⟩
      rcases List.mem_cons.1 hk with rfl | hk
      · exact absurd e1 (hn s)
      · exact ⟨k, hk, e1, e2⟩
  have same2 : ∀ {d'}, Holds d' K (fun s g => ∃ l ∈ P, TouchesAccess t l s ∧ t.linkHash l = g) →
      (∀ s, ¬ TouchesAccess t l s) →
      Holds d' K (fun s g => ∃ k ∈ l :: P, TouchesAccess t k s ∧ t.linkHash k = g) := by
    intro d' h hn
    refine h.congr fun s g => ?_
    constructor
    · rintro ⟨k, hk, e⟩; exact ⟨k, List.mem_cons_of_mem _ hk, e⟩
    · rintro ⟨k, hk, e1, e2⟩
      rcases List.mem_cons.1 hk with rfl | hk
      · exact absurd e1 (hn s)
      · exact ⟨k, hk, e1, e2⟩
  unfold countLink
  cases ha : l.status.active with
  | false =>
    simp only [Bool.not_false, if_true]
    refine ⟨fun _ => ⟨d, rfl, same1 h1 fun s h => ?_, same2 h2 fun s h => ?_⟩, fun h => ?_⟩
    · rw [h.1] at ha; cases ha
    · rw [h.1] at ha; cases ha
    · exact absurd (fun h' => by rw [h'] at ha; cases ha) h
  | true =>
    simp only [Bool.not_true, Bool.false_eq_true, if_false]
    cases hs : l.sectors with
    | none =>
      refine ⟨fun h => ?_, fun _ => ⟨_, rfl⟩⟩
      obtain ⟨a, b, e, _⟩ := h ha
      rw [hs] at e
      cases e
    | some q =>
      obtain ⟨a, b⟩ := q
      dsimp only
      cases hty : t.linkType l with
      | ethernet =>
        dsimp only
        refine ⟨fun _ => ⟨d, rfl, same1 h1 fun s h => ?_, same2 h2 fun s h => ?_⟩, fun h => absurd (fun _ => ?_) h⟩
        · have := h.2.1; rw [hty] at this; cases this
        · have := h.2.1; rw [hty] at this; cases this
        · exact ⟨a, b, hs, (by rw [hty]; simp), (by rw [hty]; simp)⟩
      | wirelessAccess =>
        dsimp only
        refine ⟨fun h => ?_, fun h => ?_⟩
        · obtain ⟨a', b', e, _, k⟩ := h ha
          rw [hs] at e
          cases e
          obtain ⟨d2, g1, g2⟩ := addHash_holds h2 (t.linkHash l) (k hty)
          rw [g1]
          refine ⟨_, rfl, same1 h1 fun s h => ?_, g2.congr fun s g => ?_⟩
          · have := h.2.1; rw [hty] at this; cases this
          · constructor
            · rintro (⟨k, hk, e⟩ | ⟨rfl, rfl⟩)
              · exact ⟨k, List.mem_cons_of_mem _ hk, e⟩
              · exact ⟨l, by simp, ⟨ha, hty, _, _, hs, rfl⟩, rfl⟩
            · rintro ⟨k, hk, e1, e2⟩
              rcases List.mem_cons.1 hk with rfl | hk
              · obtain ⟨_, _, a', b', e, rfl⟩ := e1
                rw [hs] at e
                cases e
                exact Or.inr ⟨rfl, e2.symm⟩
              · exact Or.inl ⟨k, hk, e1, e2⟩
        · have : a ∉ K := fun hK => h fun _ => ⟨a, b, hs, (by rw [hty]; simp), fun _ => hK⟩
          rw [addHash_error h2 _ this]
          exact ⟨_, rfl⟩
      | wirelessBackhaul =>
        dsimp only
        refine ⟨fun h => ?_, fun h => ?_⟩
        · obtain ⟨a', b', e, k, _⟩ := h ha
          rw [hs] at e
          cases e
          obtain ⟨d1, g1, g2⟩ := addHash_holds h1 (t.linkHash l) (k hty).1
          obtain ⟨d2, g3, g4⟩ := addHash_holds g2 (t.linkHash l) (k hty).2
          rw [g1]
          dsimp only
          rw [g3]
          refine ⟨_, rfl, g4.congr fun s g => ?_, same2 h2 fun s h => ?_⟩
          · constructor
            · rintro ((⟨k, hk, e⟩ | ⟨rfl, rfl⟩) | ⟨rfl, rfl⟩)
              · exact ⟨k, List.mem_cons_of_mem _ hk, e⟩
              · exact ⟨l, by simp, ⟨ha, hty, _, _, hs, Or.inl rfl⟩, rfl⟩
              · exact ⟨l, by simp, ⟨ha, hty, _, _, hs, Or.inr rfl⟩, rfl⟩
            · rintro ⟨k, hk, e1, e2⟩
              rcases List.mem_cons.1 hk with rfl | hk
              · obtain ⟨_, _, a', b', e, e3⟩ := e1
                rw [hs] at e
                cases e
                rcases e3 with rfl | rfl
                · exact Or.inl (Or.inr ⟨rfl, e2.symm⟩)
                · exact Or.inr ⟨rfl, e2.symm⟩
              · exact Or.inl (Or.inl ⟨k, hk, e1, e2⟩)
          · have := h.2.1; rw [hty] at this; cases this
        · by_cases ca : a ∈ K
          · have cb : b ∉ K := fun cb => h fun _ => ⟨a, b, hs, fun _ => ⟨ca, cb⟩, (by rw [hty]; simp)⟩
            obtain ⟨d1, g1, g2⟩ := addHash_holds h1 (t.linkHash l) ca
            rw [g1]
            dsimp only
            rw [addHash_error g2 _ cb]
            exact ⟨_, rfl⟩
          · rw [addHash_error h1 _ ca]
            exact ⟨_, rfl⟩

theorem countLinks_spec {t : Topology} {K : List SectorId} (L : List Link) : ∀ (P : List Link) (d : SectorLinks),
    Holds d.1 K (fun s g => ∃ l ∈ P, TouchesBackhaul t l s ∧ t.linkHash l = g) →
    Holds d.2 K (fun s g => ∃ l ∈ P, TouchesAccess t l s ∧ t.linkHash l = g) →
    ((∀ l ∈ L, Passes t K l) → ∃ d', t.countLinks d L = .ok d' ∧
      Holds d'.1 K (fun s g => ∃ k, (k ∈ L ∨ k ∈ P) ∧ TouchesBackhaul t k s ∧ t.linkHash k = g) ∧
      Holds d'.2 K (fun s g => ∃ k, (k ∈ L ∨ k ∈ P) ∧ TouchesAccess t k s ∧ t.linkHash k = g)) ∧
    (¬ (∀ l ∈ L, Passes t K l) → ∃ e, t.countLinks d L = .error e) := by
  induction L with
  | nil =>
    intro P d h1 h2
    refine ⟨fun _ => ⟨d, rfl, h1.congr fun s g => ?_, h2.congr fun s g => ?_⟩, fun h => absurd (by simp) h⟩
    · simp
    · simp
  | cons l L ih =>
    intro P d h1 h2
    obtain ⟨c1, c2⟩ := countLink_spec h1 h2 l
    unfold countLinks
    constructor
    · intro h
      obtain ⟨d', g1, g2, g3⟩ := c1 (h l (by simp))
      rw [g1]
      obtain ⟨d2, k1, k2, k3⟩ := (ih (l :: P) d' g2 g3).1 (fun l' hl' => h l' (by simp [hl']))
      refine ⟨d2, k1, k2.congr fun s g => ?_, k3.congr fun s g => ?_⟩ <;>
      · simp only [List.mem_cons]
        refine exists_congr fun k => ?_
        tauto
    · intro h
      by_cases hp : Passes t K l
      · obtain ⟨d', g1, g2, g3⟩ := c1 hp
        rw [g1]
        exact (ih (l :: P) d' g2 g3).2 (fun h' => h fun l' hl' => by
          rcases List.mem_cons.1 hl' with rfl | hl'
          · exact hp
          · exact h' l' hl')
      · obtain ⟨e, he⟩ := c2 hp
        rw [he]
        exact ⟨e, rfl⟩

theorem dnSectors_holds {t : Topology} (inv : t.Inv) : Holds t.dnSectors t.dnSectors.keys (fun _ _ => False) := by
  have hk : t.dnSectors.keys = (t.sectors.filter fun e => e.2.typ == .dn && e.2.status.active).map (·.1) := by
    unfold dnSectors Dict.keys
    rw [List.map_map]
    rfl
  refine ⟨?_, rfl, ?_⟩
  · unfold Dict.NodupKeys
    rw [hk]
    exact inv.nd_sectors.sublist (List.filter_sublist.map _)
  · intro s xs hs
    have := Dict.mem_of_get? _ hs
    unfold dnSectors at this
    obtain ⟨e, _, he⟩ := List.mem_map.1 this
    simp only [Prod.mk.injEq] at he
    rw [← he.2]
    simp

theorem mem_dnSectors {t : Topology} (inv : t.Inv) {s : SectorId} : s ∈ t.dnSectors.keys ↔ DnSector t s := by
  have hk : t.dnSectors.keys = (t.sectors.filter fun e => e.2.typ == .dn && e.2.status.active).map (·.1) := by
    unfold dnSectors Dict.keys
    rw [List.map_map]
    rfl
  rw [hk]
  unfold DnSector
  constructor
  · intro h
    obtain ⟨⟨i, x⟩, hi, rfl⟩ := List.mem_map.1 h
    obtain ⟨h1, h2⟩ := List.mem_filter.1 hi
    simp only [Bool.and_eq_true, beq_iff_eq] at h2
    exact ⟨x, (Dict.mem_iff_get? inv.nd_sectors _ _).1 h1, h2.1, (active_iff _).1 h2.2⟩
  · rintro ⟨x, h1, h2, h3⟩
    refine List.mem_map.2 ⟨(s, x), List.mem_filter.2 ⟨(Dict.mem_iff_get? inv.nd_sectors _ _).2 h1, ?_⟩, rfl⟩
    simp only [Bool.and_eq_true, beq_iff_eq]
    exact ⟨h2, (active_iff _).2 h3⟩

theorem dnSectors_length (t : Topology) : t.dnSectors.keys.length = t.sectorCount activeFilter .dn := by
  unfold dnSectors sectorCount Dict.keys Dict.vals activeFilter
  rw [List.map_map, List.length_map, List.count_eq_countP, List.countP_map, List.countP_eq_length_filter,
    List.filter_filter, List.filter_map, List.length_map]
  congr 1

/-- The loop on the whole topology. -/
theorem countAll_spec {t : Topology} (inv : t.Inv) :
    ((∀ l ∈ t.links.vals, Passes t t.dnSectors.keys l) →
      ∃ d', t.countLinks (t.dnSectors, t.dnSectors) t.links.vals = .ok d' ∧
      Holds d'.1 t.dnSectors.keys (fun s g => ∃ k ∈ t.links.vals, TouchesBackhaul t k s ∧ t.linkHash k = g) ∧
      Holds d'.2 t.dnSectors.keys (fun s g => ∃ k ∈ t.links.vals, TouchesAccess t k s ∧ t.linkHash k = g)) ∧
    (¬ (∀ l ∈ t.links.vals, Passes t t.dnSectors.keys l) →
      ∃ e, t.countLinks (t.dnSectors, t.dnSectors) t.links.vals = .error e) := by
  have h0 := dnSectors_holds inv
  obtain ⟨c1, c2⟩ := countLinks_spec (t := t) (K := t.dnSectors.keys) t.links.vals [] (t.dnSectors, t.dnSectors)
    (h0.congr (by simp)) (h0.congr (by simp))
  refine ⟨fun h => ?_, c2⟩
  obtain ⟨d', g1, g2, g3⟩ := c1 h
  exact ⟨d', g1, g2.congr (by simp), g3.congr (by simp)⟩

/-- The sizes listed for the sectors. -/
theorem sizes_eq {d : Dict SectorId (List String)} {K R} (h : Holds d K R) (f : SectorId → ℕ)
    (hf : ∀ s xs, d.get? s = some xs → xs.length = f s) : sizes d = K.map fun s => (f s : ℚ) := by
  unfold sizes
  rw [Dict.vals_eq_map h.1, List.map_map, h.2.1]
  apply List.map_congr_left
  intro s hs
  rw [← h.2.1] at hs
  obtain ⟨xs, hx⟩ := (Dict.mem_keys_iff _ _).1 hs
  simp only [Function.comp_apply, hx, Option.getD_some]
  rw [hf s xs hx]

end Verif
