import Verif.Model.UserInput
import Verif.Props.InputSites
import Verif.Props.LosInput
import Verif.Props.Tables3

/-! # C190: the sites that the user asks for -/

namespace Verif
open Kml

/-! ## Specification -/

/-- The row lies within the boundary, if there is one; a boundary says for longitude and latitude whether it does. -/
def Spec.InBoundary (boundary : Option (ℚ → ℚ → Bool)) (r : RawSite) : Prop := ∀ b, boundary = some b → b r.lon r.lat = true

/-- The device can be used for the row: it is the one the row names, or the row names none; and CNs need CN devices,
other sites DN devices. -/
def Spec.Suits (L : Loader) (r : RawSite) (d : Device) : Prop :=
  d ∈ L.devices ∧ (∀ sku, r.sku = some sku → L.fold d.sku = L.fold sku) ∧ (d.deviceType = .cn ↔ r.typ = .cn)

/-- A site as the row describes it, with this device. -/
structure Spec.AsAsked (infer : RawSite → Option ℚ × LocationType) (r : RawSite) (d : Device) (y : NamedSite) : Prop where
  typ : y.site.siteType = r.typ
  lat : y.site.lat = r.lat
  lon : y.site.lon = r.lon
  alt : y.site.alt = (infer r).1
  loc : y.loc = (infer r).2
  device : y.site.device = d

/-- What else the site takes from the row. -/
structure Spec.Rest (infer : RawSite → Option ℚ × LocationType) (r : RawSite) (y : NamedSite) : Prop where
  status : y.site.status = r.status
  building : y.site.building = if (infer r).2 = .rooftop then some (-1) else none
  subscribers : y.site.subscribers = if r.typ = .cn then max 1 (r.subs.getD 0) else 0

open Spec

/-! ## Lemmas -/

theorem inside_iff {boundary : Option (ℚ → ℚ → Bool)} {r : RawSite} : inside boundary r = true ↔ InBoundary boundary r := by
  unfold inside InBoundary
  cases boundary <;> simp

theorem site_made {L : Loader} {r : RawSite} {d : Device} {x : NamedSite} (h : L.site r d = .ok x) :
    (d.deviceType = .cn ↔ r.typ = .cn) ∧ x.site.siteType = r.typ ∧ x.site.lat = r.lat ∧ x.site.lon = r.lon ∧
    x.site.alt = r.alt ∧ x.loc = r.loc ∧ x.site.device = d ∧ x.site.status = r.status ∧
    x.site.subscribers = if r.typ = .cn then max 1 (r.subs.getD 0) else 0 := by
  unfold Loader.site at h
  split at h
  · cases h
  split at h
  · cases h
  split at h
  · cases h
  · rename_i hd
    injection h with h
    subst h
    refine ⟨?_, rfl, rfl, rfl, rfl, rfl, rfl, rfl, ?_⟩
    · rw [not_not] at hd
      rcases hd with ⟨h1, h2⟩ | ⟨h1, h2⟩ <;> simp [h1, h2]
    · dsimp only
      split
      · split <;> omega
      · rfl

theorem sites_made {L : Loader} {r : RawSite} {xs : List NamedSite} (h : L.sites r = .ok xs) {x : NamedSite} (hx : x ∈ xs) :
    ∃ d, d ∈ L.devices ∧ (∀ sku, r.sku = some sku → L.fold d.sku = L.fold sku) ∧ L.site r d = .ok x := by
  unfold Loader.sites at h
  split at h
  · rename_i sku hs
    split at h
    · cases h
    · rename_i d hd
      split at h
      · cases h
      · rename_i s hk
        injection h with h
        subst h
        rw [List.mem_singleton] at hx
        subst hx
        unfold Loader.device at hd
        refine ⟨d, by simpa using List.mem_of_find?_eq_some hd, fun k hk' => ?_, hk⟩
        rw [hs] at hk'
        injection hk' with hk'
        subst hk'
        simpa using List.find?_some hd
  · rename_i hs
    have f := List.forall₂_iff_get.1 (mapM_forall₂ _ _ _ h)
    obtain ⟨i, hi, rfl⟩ := List.getElem_of_mem hx
    have hi' := hi
    rw [← f.1] at hi'
    have e := f.2 i hi' hi
    have hd := List.getElem_mem hi'
    simp only [List.get_eq_getElem] at e
    generalize (L.devices.filter _)[i] = d at e hd
    refine ⟨d, (List.mem_filter.1 hd).1, fun k hk => ?_, e⟩
    rw [hs] at hk
    cases hk

theorem sites_all {L : Loader} {r : RawSite} {xs : List NamedSite} (nd : (L.devices.map (fun d => L.fold d.sku)).Nodup)
    (h : L.sites r = .ok xs) {d : Device} (hd : Suits L r d) : ∃ x ∈ xs, L.site r d = .ok x := by
  obtain ⟨hm, hs, ht⟩ := hd
  unfold Loader.sites at h
  split at h
  · rename_i sku hk
    split at h
    · cases h
    · rename_i d' hd'
      have e : d' = d := by
        refine List.inj_on_of_nodup_map nd ?_ hm ?_
        · simpa using List.mem_of_find?_eq_some hd'
        · rw [hs sku hk]
          simpa using List.find?_some hd'
      subst e
      split at h
      · cases h
      · rename_i s hs'
        injection h with h
        subst h
        exact ⟨s, by simp, hs'⟩
  · have f := List.forall₂_iff_get.1 (mapM_forall₂ _ _ _ h)
    have hd' : d ∈ L.devices.filter fun d => decide (d.deviceType = if r.typ = .cn then .cn else .dn) := by
      rw [List.mem_filter]
      refine ⟨hm, decide_eq_true ?_⟩
      split
      · rename_i c; exact ht.2 c
      · rename_i c
        cases hdt : d.deviceType
        · exact absurd (ht.1 hdt) c
        · rfl
    obtain ⟨i, hi, e⟩ := List.getElem_of_mem hd'
    have hi' : i < xs.length := by rw [← f.1]; exact hi
    refine ⟨xs[i], List.getElem_mem hi', ?_⟩
    have := f.2 i hi hi'
    simp only [List.get_eq_getElem] at this
    rw [← e]
    exact this

theorem user_made {L : Loader} {infer : RawSite → Option ℚ × LocationType} {r : RawSite} {xs : List NamedSite}
    (h : L.userSites infer r = .ok xs) {x : NamedSite} (hx : x ∈ xs) :
    ∃ d, Suits L r d ∧ AsAsked infer r d x ∧ Rest infer r x := by
  unfold Loader.userSites at h
  dsimp only at h
  split at h
  · cases h
  · rename_i ys hy
    injection h with h
    subst h
    obtain ⟨y, hm, rfl⟩ := List.mem_map.1 hx
    obtain ⟨d, h1, h2, h3⟩ := sites_made hy hm
    obtain ⟨k0, k1, k2, k3, k4, k5, k6, k7, k8⟩ := site_made h3
    exact ⟨d, ⟨h1, h2, k0⟩, ⟨k1, k2, k3, k4, k5, k6⟩, ⟨k7, by simp, k8⟩⟩

theorem user_all {L : Loader} {infer : RawSite → Option ℚ × LocationType} {r : RawSite} {xs : List NamedSite}
    (nd : (L.devices.map (fun d => L.fold d.sku)).Nodup) (h : L.userSites infer r = .ok xs) {d : Device}
    (hd : Suits L r d) : ∃ x ∈ xs, AsAsked infer r d x := by
  unfold Loader.userSites at h
  dsimp only at h
  split at h
  · cases h
  · rename_i ys hy
    injection h with h
    subst h
    obtain ⟨y, hm, e⟩ := sites_all nd hy (d := d) hd
    obtain ⟨k0, k1, k2, k3, k4, k5, k6, -⟩ := site_made e
    exact ⟨_, List.mem_map.2 ⟨y, hm, rfl⟩, ⟨k1, k2, k3, k4, k5, k6⟩⟩

theorem userInput_ok {L : Loader} {infer : RawSite → Option ℚ × LocationType} {boundary : Option (ℚ → ℚ → Bool)}
    {rows : List RawSite} {S : InputSites} (h : L.userInput infer boundary rows = .ok S) :
    ∃ xs, (rows.filter (inside boundary)).mapM (L.userSites infer) = .ok xs ∧
      ({} : InputSites).load L.fold xs.flatten = .ok S := by
  unfold Loader.userInput at h
  split at h
  · cases h
  · rename_i xs hx
    exact ⟨xs, hx, h⟩

/-! ## Theorems -/

/-- **C190, nothing else.** Every site that is loaded comes from a row within the boundary, at the
row's place, with its type and status, on a device that suits the row. -/
theorem C190_only_asked (L : Loader) (infer : RawSite → Option ℚ × LocationType) (boundary : Option (ℚ → ℚ → Bool))
    (rows : List RawSite) (S : InputSites) (h : L.userInput infer boundary rows = .ok S) :
    ∀ y ∈ S.list, ∃ r ∈ rows, InBoundary boundary r ∧ ∃ d, Suits L r d ∧ AsAsked infer r d y ∧ Rest infer r y := by
  obtain ⟨xs, hx, hl⟩ := userInput_ok h
  have f := List.forall₂_iff_get.1 ((InputSites.C29_names_partial L.fold xs.flatten).2 S hl).1
  have g := List.forall₂_iff_get.1 (mapM_forall₂ _ _ _ hx)
  intro y hy
  obtain ⟨i, hi, rfl⟩ := List.getElem_of_mem hy
  have hi' : i < (keepFirst (·.key L.fold) xs.flatten).length := by rw [f.1]; exact hi
  obtain ⟨e1, e2⟩ := f.2 i hi' hi
  simp only [List.get_eq_getElem] at e1 e2
  have hm := (keepFirst_sub (·.key L.fold) xs.flatten).subset (List.getElem_mem hi')
  generalize (keepFirst (·.key L.fold) xs.flatten)[i] = x at e1 e2 hm
  obtain ⟨zs, hz, hxz⟩ := List.mem_flatten.1 hm
  obtain ⟨j, hj, rfl⟩ := List.getElem_of_mem hz
  have hj' : j < (rows.filter (inside boundary)).length := by rw [g.1]; exact hj
  have hr := List.mem_filter.1 (List.getElem_mem hj')
  have hu := g.2 j hj' hj
  simp only [List.get_eq_getElem] at hu
  obtain ⟨d, k1, k2, k3⟩ := user_made hu hxz
  refine ⟨_, hr.1, inside_iff.1 hr.2, d, k1, ?_, ?_⟩
  · exact ⟨e1 ▸ k2.typ, e1 ▸ k2.lat, e1 ▸ k2.lon, e1 ▸ k2.alt, e2 ▸ k2.loc, e1 ▸ k2.device⟩
  · exact ⟨e1 ▸ k3.status, e1 ▸ k3.building, e1 ▸ k3.subscribers⟩

/-- **C190, partial**: every row within the boundary gives a site on each device that suits it. Missing: a row that no
device suits; it gives no site and no message, see `C190_row_lost_violation`. -/
theorem C190_all_asked_partial (L : Loader) (infer : RawSite → Option ℚ × LocationType)
    (boundary : Option (ℚ → ℚ → Bool)) (rows : List RawSite) (S : InputSites)
    (nd : (L.devices.map (fun d => L.fold d.sku)).Nodup) (h : L.userInput infer boundary rows = .ok S) :
    ∀ r ∈ rows, InBoundary boundary r → ∀ d, Suits L r d → ∃ y ∈ S.list, AsAsked infer r d y := by
  intro r hr hw d hd
  have only := C190_only_asked L infer boundary rows S h
  obtain ⟨xs, hx, hl⟩ := userInput_ok h
  have f := List.forall₂_iff_get.1 ((InputSites.C29_names_partial L.fold xs.flatten).2 S hl).1
  have g := List.forall₂_iff_get.1 (mapM_forall₂ _ _ _ hx)
  obtain ⟨j, hj, e⟩ := List.getElem_of_mem (List.mem_filter.2 ⟨hr, inside_iff.2 hw⟩)
  have hj' : j < xs.length := by rw [← g.1]; exact hj
  have hu := g.2 j hj hj'
  simp only [List.get_eq_getElem] at hu
  rw [e] at hu
  obtain ⟨x, hxm, a⟩ := user_all nd hu hd
  obtain ⟨z, hz, k⟩ := keepFirst_cover (·.key L.fold) (List.mem_flatten.2 ⟨_, List.getElem_mem hj', hxm⟩)
  obtain ⟨i, hi, rfl⟩ := List.getElem_of_mem hz
  have hi' : i < S.list.length := by rw [← f.1]; exact hi
  obtain ⟨e1, e2⟩ := f.2 i hi hi'
  simp only [List.get_eq_getElem] at e1 e2
  generalize (keepFirst (fun x => NamedSite.key L.fold x) xs.flatten)[i] = z at e1 e2 k
  simp only [NamedSite.key, SiteKey.mk.injEq] at k
  obtain ⟨k1, k2, k3, k4, k5, -, k7⟩ := k
  refine ⟨S.list[i], List.getElem_mem hi', ?_⟩
  obtain ⟨r', -, -, d', hd', a', -⟩ := only _ (List.getElem_mem hi')
  refine ⟨by rw [e1, k4, a.typ], by rw [e1, k1, a.lat], by rw [e1, k2, a.lon], by rw [e1, k3, a.alt],
    by rw [e2, k5, a.loc], ?_⟩
  refine List.inj_on_of_nodup_map nd (a'.device ▸ hd'.1) hd.1 ?_
  rw [e1, k7, a.device]

/-- **C190, as given.** With the inference of the LOS phase: every row within the boundary has, on each device that suits
it, a site at its place with the altitude and the location type the row gives. If it gives no altitude and there is
surface elevation, the site is the given height above the surface, if there is one. -/
theorem C190_given_kept (L : Loader) (C : InferCfg) (utm : ℚ → ℚ → ℚ × ℚ)
    (boundary : Option (ℚ → ℚ → Bool)) (rows : List RawSite) (S : InputSites)
    (nd : (L.devices.map (fun d => L.fold d.sku)).Nodup) (h : L.userInput (inferRow C utm) boundary rows = .ok S) :
    ∀ r ∈ rows, InBoundary boundary r → ∀ d, Suits L r d → ∃ y ∈ S.list,
      y.site.lat = r.lat ∧ y.site.lon = r.lon ∧ y.site.siteType = r.typ ∧ y.site.device = d ∧
      (∀ z, r.alt = some z → y.site.alt = some z) ∧
      (r.loc ≠ .unknown → y.loc = r.loc) ∧
      (∀ s k, C.surface = some s → r.alt = none → r.height = some k →
        y.site.alt = some (s (utm r.lon r.lat).1 (utm r.lon r.lat).2 + k)) := by
  intro r hr hw d hd
  obtain ⟨y, hy, a⟩ := C190_all_asked_partial L _ boundary rows S nd h r hr hw d hd
  obtain ⟨-, c1, c2, -, c4, -⟩ := C107_input_sites C
    ⟨(utm r.lon r.lat).1, (utm r.lon r.lat).2, r.alt, r.height, r.loc, r.typ⟩
  refine ⟨y, hy, a.lat, a.lon, a.typ, a.device, fun z hz => ?_, fun hl => ?_, fun s k hs hz hk => ?_⟩
  · rw [a.alt]; exact c1 z hz
  · rw [a.loc]; exact c2 hl
  · rw [a.alt]
    have := c4 s hs hz
    simp only [mountHeight, hk] at this
    rw [← hk] at this
    exact this

/-- **C190, outside.** A row outside the boundary makes no difference, even if its device is not known. -/
theorem C190_outside_ignored (L : Loader) (infer : RawSite → Option ℚ × LocationType)
    (boundary : Option (ℚ → ℚ → Bool)) (before after : List RawSite) (r : RawSite) (h : ¬ InBoundary boundary r) :
    L.userInput infer boundary (before ++ r :: after) = L.userInput infer boundary (before ++ after) := by
  unfold Loader.userInput
  have : inside boundary r = false := by
    cases c : inside boundary r
    · rfl
    · exact absurd (inside_iff.1 c) h
  rw [List.filter_append, List.filter_append, List.filter_cons_of_neg (by simp [this])]

/-- **C190, rejected.** A row within the boundary that names a device that is not in the list, or one of the wrong
kind, is not accepted. -/
theorem C190_unsuitable_rejected (L : Loader) (infer : RawSite → Option ℚ × LocationType)
    (boundary : Option (ℚ → ℚ → Bool)) (rows : List RawSite) (r : RawSite) (hr : r ∈ rows) (hw : InBoundary boundary r)
    (sku : String) (hs : r.sku = some sku) (hd : ∀ d, ¬ Suits L r d) :
    ∃ e, L.userInput infer boundary rows = .error e := by
  cases c : L.userInput infer boundary rows with
  | error e => exact ⟨e, rfl⟩
  | ok S =>
    exfalso
    obtain ⟨xs, hx, hl⟩ := userInput_ok c
    have g := List.forall₂_iff_get.1 (mapM_forall₂ _ _ _ hx)
    obtain ⟨j, hj, e⟩ := List.getElem_of_mem (List.mem_filter.2 ⟨hr, inside_iff.2 hw⟩)
    have hj' : j < xs.length := by rw [← g.1]; exact hj
    have hu := g.2 j hj hj'
    simp only [List.get_eq_getElem] at hu
    rw [e] at hu
    cases hxs : xs[j] with
    | cons x _ =>
      obtain ⟨d, k, -⟩ := user_made hu (x := x) (by rw [hxs]; simp)
      exact hd d k
    | nil =>
      rw [hxs] at hu
      unfold Loader.userSites Loader.sites at hu
      dsimp only at hu
      rw [hs] at hu
      dsimp only at hu
      split at hu
      · cases hu
      · rename_i ys hy
        split at hy
        · cases hy
        · split at hy
          · cases hy
          · injection hy with hy
            subst hy
            simp at hu

/-! ## Examples and violation -/

/-- A loader with one CN device and two DN devices. -/
def askLoader : Loader where
  devices := [{ sku := "cn" , deviceType := .cn }, { sku := "A" , deviceType := .dn }, { sku := "B" , deviceType := .dn }]
  fold := id
  hash _ lat _ _ sku := toString lat.num ++ sku
  near _ _ := .ok []

def askInfer (r : RawSite) : Option ℚ × LocationType := (some 5, r.loc)

/-- A DN without device, a CN with its device, and a site of an unknown device far away. -/
def askRows : List RawSite := [
  { typ := .dn, status := .candidate, lat := 1, lon := 1, name := some "pole", loc := .rooftop, building := some 7 },
  { typ := .cn, status := .proposed, lat := 2, lon := 1, sku := some "cn", subs := some 3 },
  { typ := .dn, status := .candidate, lat := 50, lon := 1, sku := some "?" }]

/-- Between the latitudes 0 and 10. -/
def askBox : Option (ℚ → ℚ → Bool) := some fun _ lat => decide (0 < lat ∧ lat < 10)

/-- The hypotheses of the theorems hold of the example: two sites on the pole and one CN are loaded. -/
example : ∃ S, askLoader.userInput askInfer askBox askRows = .ok S ∧
    (askLoader.devices.map (fun d => askLoader.fold d.sku)).Nodup ∧
    S.list.map (fun y => (y.site.device.sku, y.site.building, y.site.subscribers)) =
      [("A", some (-1), 0), ("B", some (-1), 0), ("cn", none, 3)] := by
  refine ⟨((askLoader.userInput askInfer askBox askRows).toOption).getD {}, by decide +kernel, by decide +kernel,
    by decide +kernel⟩

/-- Flat ground at 100 metres. -/
def askGround : InferCfg := ⟨some fun _ _ => 100, none, 1, 2, 3, 4⟩

/-- The hypotheses of `C190_given_kept` hold of a DN seven metres above the ground and a CN of given altitude. -/
example : ∃ S, askLoader.userInput (inferRow askGround fun x y => (x, y)) askBox
      [{ typ := .dn, status := .candidate, lat := 1, lon := 1, height := some 7, name := some "pole", sku := some "A" },
       { typ := .cn, status := .candidate, lat := 2, lon := 1, alt := some 30 }] = .ok S ∧
    S.list.map (fun y => (y.site.device.sku, y.site.alt)) = [("A", some 107), ("cn", some 30)] :=
  ⟨((askLoader.userInput (inferRow askGround fun x y => (x, y)) askBox
      [{ typ := .dn, status := .candidate, lat := 1, lon := 1, height := some 7, name := some "pole", sku := some "A" },
       { typ := .cn, status := .candidate, lat := 2, lon := 1, alt := some 30 }]).toOption).getD {},
    by decide +kernel, by decide +kernel⟩

/-- The hypotheses of `C190_unsuitable_rejected` hold of the third row if there is no boundary. -/
example : askRows[2] ∈ askRows ∧ InBoundary none askRows[2] ∧ askRows[2].sku = some "?" ∧
    ∀ d, ¬ Suits askLoader askRows[2] d := by
  refine ⟨by decide +kernel, (fun b h => by cases h), by decide +kernel, fun d h => ?_⟩
  have k : ∀ d ∈ askLoader.devices, askLoader.fold d.sku ≠ askLoader.fold "?" := by decide +kernel
  exact k d h.1 (h.2.1 "?" (by decide +kernel))

/-- The hypothesis of `C190_outside_ignored` holds of the third row and the box. -/
example : ¬ InBoundary askBox askRows[2] := fun h => by
  have := h _ rfl
  revert this
  decide +kernel

/-- **C190, violated.** With DN devices only, a CN without device is not loaded, and there is no exception. -/
theorem C190_row_lost_violation : ∃ (L : Loader) (infer : RawSite → Option ℚ × LocationType) (r : RawSite),
    L.devices ≠ [] ∧ L.userInput infer none [r] = .ok {} :=
  ⟨{ askLoader with devices := [{ sku := "A", deviceType := .dn }] }, askInfer,
    { typ := .cn, status := .candidate, lat := 1, lon := 1 }, by decide +kernel, by decide +kernel⟩

end Verif
