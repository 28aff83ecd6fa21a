import Verif.Lemmas.InputSites

/-! # Loaded sites have unique names (C29) -/

namespace Verif

theorem keepFirst_sub {α κ : Type} [DecidableEq κ] (key : α → κ) (xs : List α) : (keepFirst key xs).Sublist xs := by
  induction xs with
  | nil => exact List.Sublist.refl _
  | cons x r ih => exact (List.filter_sublist.trans ih).cons_cons x

theorem keepFirst_cover {α κ : Type} [DecidableEq κ] (key : α → κ) {xs : List α} {x : α} (h : x ∈ xs) :
    ∃ y ∈ keepFirst key xs, key y = key x := by
  induction xs with
  | nil => simp at h
  | cons a r ih =>
    by_cases c : key a = key x
    · exact ⟨a, by simp [keepFirst], c⟩
    · rcases List.mem_cons.1 h with rfl | h
      · exact absurd rfl c
      · obtain ⟨y, hy, e⟩ := ih h
        refine ⟨y, ?_, e⟩
        simp only [keepFirst, List.mem_cons, List.mem_filter, decide_eq_true_eq]
        exact Or.inr ⟨hy, by rw [e]; exact Ne.symm c⟩

namespace InputSites

variable {fold : String → String}

/-- The sites of `xs` kept after those of `D`. -/
def fresh (fold : String → String) (D xs : List NamedSite) : List NamedSite :=
  (keepFirst (·.key fold) xs).filter fun y => ∀ d ∈ D, d.key fold ≠ y.key fold

theorem fresh_dup {D xs : List NamedSite} {x : NamedSite} (h : ∃ y ∈ D, y.key fold = x.key fold) :
    fresh fold D (x :: xs) = fresh fold D xs := by
  unfold fresh
  simp only [keepFirst]
  rw [List.filter_cons_of_neg (by simpa using h), List.filter_filter]
  refine List.filter_congr fun y _ => ?_
  obtain ⟨z, hz, e⟩ := h
  simp only [ne_eq, decide_not, Bool.and_eq_left_iff_imp, decide_eq_true_eq, Bool.not_eq_eq_eq_not, Bool.not_true,
    decide_eq_false_iff_not]
  intro all e2
  exact all z hz (e.trans e2.symm)

theorem fresh_new {D xs : List NamedSite} {x : NamedSite} (h : ∀ y ∈ D, y.key fold ≠ x.key fold) :
    D ++ fresh fold D (x :: xs) = (D ++ [x]) ++ fresh fold (D ++ [x]) xs := by
  unfold fresh
  simp only [keepFirst]
  rw [List.filter_cons_of_pos (by simpa using h), List.append_assoc, List.singleton_append, List.filter_filter]
  congr 2
  refine List.filter_congr fun y _ => ?_
  rw [Bool.eq_iff_iff]
  simp only [Bool.and_eq_true, decide_eq_true_eq, List.mem_append, List.mem_singleton]
  constructor
  · rintro ⟨h1, h2⟩ d (hd | rfl)
    · exact h1 d hd
    · exact Ne.symm h2
  · intro h
    exact ⟨fun d hd => h d (Or.inl hd), Ne.symm (h x (Or.inr rfl))⟩

/-- Loading carries the invariants along; `A` are all sites. -/
theorem load_inv {A : List NamedSite} (xs : List NamedSite) {D : List NamedSite} {S : InputSites} (g : Gen fold D S)
    (sub : ∀ y ∈ D, y ∈ A) (subx : ∀ y ∈ xs, y ∈ A) :
    (S.load fold xs = .error .data ∧ Clash fold A) ∨
    ∃ S', S.load fold xs = .ok S' ∧ Gen fold (D ++ fresh fold D xs) S' ∧
      (ClearNames fold A → Fine fold D S → Fine fold (D ++ fresh fold D xs) S') := by
  induction xs generalizing D S with
  | nil =>
    right
    refine ⟨S, rfl, ?_, ?_⟩ <;> simp [fresh, keepFirst, g]
  | cons x r ih =>
    have hx := subx x (List.mem_cons_self ..)
    have subr : ∀ y ∈ r, y ∈ A := fun y hy => subx y (List.mem_cons_of_mem _ hy)
    rcases g.add x with ⟨dup, e⟩ | ⟨nk, ⟨y, hy, hn, hs⟩, e⟩ | ⟨nk, n2, S1, e, g1, how⟩
    · unfold load
      rw [e, fresh_dup dup]
      exact ih g sub subr
    · left
      unfold load
      rw [e]
      refine ⟨rfl, x, hx, y, sub y hy, hn, hs, ?_⟩
      by_contra c
      simp only [not_or, not_not] at c
      apply nk y hy
      simp [NamedSite.key, hn, hs, c]
    · unfold load
      rw [e, fresh_new nk]
      have sub1 : ∀ y ∈ D ++ [x], y ∈ A := by
        intro y hy
        rcases List.mem_append.1 hy with hy | hy
        · exact sub y hy
        · simp only [List.mem_singleton] at hy; subst hy; exact hx
      rcases ih g1 sub1 subr with h | ⟨S', e', g', f'⟩
      · exact Or.inl h
      · exact Or.inr ⟨S', e', g', fun clr f => f' clr (f.add clr sub hx g n2 how)⟩

theorem fresh_nil (xs : List NamedSite) : fresh fold [] xs = keepFirst (·.key fold) xs := by
  unfold fresh
  rw [List.filter_eq_self]
  simp

theorem shared_keep {xs : List NamedSite} {x : NamedSite} :
    Shared fold (keepFirst (·.key fold) xs) x ↔ Shared fold xs x := by
  constructor
  · exact fun h => h.mono fun y hy => (keepFirst_sub _ xs).subset hy
  · rintro ⟨y, hy, e, ne⟩
    obtain ⟨z, hz, k⟩ := keepFirst_cover (·.key fold) hy
    simp only [NamedSite.key, SiteKey.mk.injEq] at k
    exact ⟨z, hz, k.2.2.2.2.2.1.trans e, by rw [k.2.2.2.2.2.2]; exact ne⟩

/-- Loading fails exactly on a clash. -/
theorem load_cases (xs : List NamedSite) :
    (Clash fold xs ∧ ({} : InputSites).load fold xs = .error .data) ∨
    (¬ Clash fold xs ∧ ∃ S, ({} : InputSites).load fold xs = .ok S ∧
      Gen fold (keepFirst (·.key fold) xs) S ∧
      (ClearNames fold xs → Fine fold (keepFirst (·.key fold) xs) S)) := by
  have h := load_inv (fold := fold) (A := xs) xs Gen.empty (by simp) (fun y hy => hy)
  rw [fresh_nil, List.nil_append] at h
  rcases h with ⟨e, c⟩ | ⟨S, e, g, f⟩
  · exact Or.inl ⟨c, e⟩
  · refine Or.inr ⟨?_, S, e, g, fun clr => f clr Fine.empty⟩
    rintro ⟨x, hx, y, hy, hn, hs, d⟩
    obtain ⟨x', hx', kx⟩ := keepFirst_cover (·.key fold) hx
    obtain ⟨y', hy', ky⟩ := keepFirst_cover (·.key fold) hy
    have : x' = y' := by
      refine List.inj_on_of_nodup_map g.nd hx' hy' ?_
      simp only [NamedSite.key, SiteKey.mk.injEq] at kx ky
      simp only [Prod.mk.injEq]
      exact ⟨kx.2.2.2.2.2.1.trans (hn.symm.trans ky.2.2.2.2.2.1.symm),
        kx.2.2.2.2.2.2.trans (hs.symm.trans ky.2.2.2.2.2.2.symm)⟩
    subst this
    have kk := kx.symm.trans ky
    simp only [NamedSite.key, SiteKey.mk.injEq] at kk
    obtain ⟨k1, k2, k3, k4, k5, -⟩ := kk
    rcases d with d | d | d | d | d <;> simp_all

/-- C29. Loading a list of sites fails, with a DataException, exactly if two sites share name and device but
differ in place or type. Otherwise the sites kept are the first of each group of equal ones, in order, changed
in nothing but the name; looking up a name or an id yields a site with that name or id only, and every id is
found; adding one of the sites again has no effect. If no name clashes with a name made by appending a device: a site whose name another site with another
device has gets the device appended, all others keep their names; names are pairwise different, and each site is
found by its name. -/
theorem C29_names_partial (fold : String → String) (xs : List NamedSite) :
    (∀ e, ({} : InputSites).load fold xs = .error e ↔ e = .data ∧ Clash fold xs) ∧
    ∀ S, ({} : InputSites).load fold xs = .ok S →
      List.Forall₂ (fun x y => y.site = x.site ∧ y.loc = x.loc) (keepFirst (·.key fold) xs) S.list ∧
      (∀ n y, S.getByName n = some y → y ∈ S.list ∧ y.name = n) ∧
      (∀ i y, S.getById i = some y → y ∈ S.list ∧ y.site.id = i) ∧
      (∀ y ∈ S.list, ∃ z, S.getById y.site.id = some z) ∧
      (∀ x ∈ xs, S.add fold x = .ok S) ∧
      (ClearNames fold xs →
        List.Forall₂ (fun x y =>
          (Shared fold xs x → y = { x with given := x.name ++ "_" ++ fold x.site.device.sku }) ∧
          (¬ Shared fold xs x → y = x)) (keepFirst (·.key fold) xs) S.list ∧
        (S.list.map (·.name)).Nodup ∧
        ∀ y ∈ S.list, S.getByName y.name = some y) := by
  have hc := load_cases (fold := fold) xs
  constructor
  · intro e
    rcases hc with ⟨c, h⟩ | ⟨c, S, h, -⟩ <;> rw [h]
    · simp only [Except.error.injEq]
      exact ⟨fun h => ⟨h.symm, c⟩, fun h => h.1.symm⟩
    · simp [c]
  · intro S hS
    rcases hc with ⟨c, h⟩ | ⟨c, S', h, g, f⟩ <;> rw [h] at hS
    · simp at hS
    simp only [Except.ok.injEq] at hS
    subst hS
    refine ⟨?_, ?_, ?_, ?_, ?_, ?_⟩
    · rw [List.forall₂_iff_get]
      refine ⟨g.len.symm, fun i h1 h2 => ?_⟩
      exact g.shape i _ _ (List.getElem?_eq_getElem h1) (List.getElem?_eq_getElem h2)
    · intro n y hy
      obtain ⟨i, hi, hl⟩ := Option.bind_eq_some_iff.1 hy
      obtain ⟨z, hz, e⟩ := g.sound n i hi
      rw [hl] at hz
      simp only [Option.some.injEq] at hz
      subst hz
      exact ⟨List.mem_of_getElem? hl, e⟩
    · intro n y hy
      obtain ⟨i, hi, hl⟩ := Option.bind_eq_some_iff.1 hy
      obtain ⟨z, hz, e⟩ := g.byId n i hi
      rw [hl] at hz
      simp only [Option.some.injEq] at hz
      subst hz
      exact ⟨List.mem_of_getElem? hl, e⟩
    · intro y hy
      obtain ⟨i, hi, e⟩ := List.getElem_of_mem hy
      have h1 : S'.list[i]? = some y := by rw [List.getElem?_eq_getElem hi, e]
      obtain ⟨x, hx⟩ := at_of g.len h1
      obtain ⟨j, hj⟩ := g.ids x (List.mem_of_getElem? hx)
      rw [← (g.shape i x y hx h1).1] at hj
      obtain ⟨z, hz, -⟩ := g.byId _ _ hj
      exact ⟨z, by unfold getById; rw [hj]; exact hz⟩
    · intro x hx
      rcases g.add x with ⟨-, h⟩ | ⟨n, -⟩ | ⟨n, -⟩
      · exact h
      all_goals
        obtain ⟨y, hy, k⟩ := keepFirst_cover (·.key fold) hx
        exact absurd k (n y hy)
    · intro clr
      have f := f clr
      refine ⟨?_, ?_, ?_⟩
      · rw [List.forall₂_iff_get]
        refine ⟨g.len.symm, fun i h1 h2 => ?_⟩
        have := f.fin i _ _ (List.getElem?_eq_getElem h1) (List.getElem?_eq_getElem h2)
        rw [shared_keep] at this
        exact this
      · rw [List.nodup_iff_injective_get]
        intro i j e
        simp only [List.get_eq_getElem, List.getElem_map] at e
        have hi : (i : Nat) < S'.list.length := by simpa using i.2
        have hj : (j : Nat) < S'.list.length := by simpa using j.2
        have h1 := f.found i _ (List.getElem?_eq_getElem hi)
        have h2 := f.found j _ (List.getElem?_eq_getElem hj)
        rw [e, h2] at h1
        simp only [Option.some.injEq] at h1
        exact Fin.ext h1.symm
      · intro y hy
        obtain ⟨i, hi, e⟩ := List.getElem_of_mem hy
        have h1 : S'.list[i]? = some y := by rw [List.getElem?_eq_getElem hi, e]
        unfold getByName
        rw [f.found i y h1]
        exact h1

/-- A site for the examples. -/
def namedDn (i n sku : String) (lat : ℚ) : NamedSite :=
  { site := { id := i, siteType := .dn, status := .candidate, lat := lat, device := { sku := sku } }, given := n }

/-- Three sites called `pole` at one place, one of them without device in common, and one site given twice. -/
def poles : List NamedSite :=
  [namedDn "i1" "pole" "A" 1, namedDn "i2" "pole" "B" 1, namedDn "i3" "" "A" 2, namedDn "i1" "pole" "A" 1]

theorem poles_clear : ClearNames id poles := by
  constructor <;> unfold Shared <;> decide +kernel

/-- The two poles get their devices appended, the site without name keeps its id, the repeated one is dropped. -/
example : (({} : InputSites).load id poles).map (fun S => S.list.map (·.name)) =
    .ok ["pole_A", "pole_B", "i3"] := by decide +kernel

/-- A clash: same name and device at two places. -/
example : Clash id [namedDn "i1" "pole" "A" 1, namedDn "i2" "pole" "A" 2] := by
  unfold Clash; decide +kernel

theorem ok_of_toOption {α : Type} {r : Except Err α} {a : α} (h : a ∈ r.toOption) : r = .ok a := by
  cases r with
  | error e => simp [Except.toOption] at h
  | ok b => simp only [Except.toOption, Option.mem_def, Option.some.injEq] at h; rw [h]

/-- The full claim fails: if a site is called like another one with the device appended, two stored sites have the
same name, and one of them cannot be found. -/
theorem C29_given_name_violation : ∃ (xs : List NamedSite) (S : InputSites),
    ({} : InputSites).load id xs = .ok S ∧ ¬ (S.list.map (·.name)).Nodup ∧
    ∃ y ∈ S.list, S.getByName y.name ≠ some y := by
  have h : ∃ S ∈ (({} : InputSites).load id
      [namedDn "i1" "pole" "A" 1, namedDn "i2" "pole_A" "A" 2, namedDn "i3" "pole" "B" 1]).toOption,
      ¬ (S.list.map (·.name)).Nodup ∧ ∃ y ∈ S.list, S.getByName y.name ≠ some y := by decide +kernel
  obtain ⟨S, hS, h⟩ := h
  exact ⟨_, S, ok_of_toOption hS, h⟩

/-- The same with names nobody wrote: device names with an underscore can make two appended names equal. -/
theorem C29_appended_name_violation : ∃ (xs : List NamedSite) (S : InputSites),
    ({} : InputSites).load id xs = .ok S ∧ (∀ x ∈ xs, ∀ y ∈ xs, x.name ≠ y.name ++ "_" ++ y.site.device.sku) ∧
    ¬ (S.list.map (·.name)).Nodup ∧ ∃ y ∈ S.list, S.getByName y.name ≠ some y := by
  have h : ∃ S ∈ (({} : InputSites).load id
      [namedDn "i1" "a" "b_c" 1, namedDn "i2" "a" "d" 1, namedDn "i3" "a_b" "c" 2, namedDn "i4" "a_b" "d" 2]).toOption,
      ¬ (S.list.map (·.name)).Nodup ∧ ∃ y ∈ S.list, S.getByName y.name ≠ some y := by decide +kernel
  obtain ⟨S, hS, h⟩ := h
  exact ⟨_, S, ok_of_toOption hS, by decide +kernel, h⟩

/-- **C29.** A site goes by the name given to it, and by its id if none is given: that is the name it is found by
after loading it. -/
theorem C29_default_name (fold : String → String) (x : NamedSite) :
    x.name = (if x.given = "" then x.site.id else x.given)
    ∧ ∃ S, load fold {} [x] = .ok S ∧ S.getByName (if x.given = "" then x.site.id else x.given) = some x := by
  refine ⟨rfl, _, rfl, ?_⟩
  have h : (if x.given = "" then x.site.id else x.given) = x.name := rfl
  rw [h]
  simp [getByName, insert, skusOf, Dict.get?_set_self, Dict.get?]

end InputSites
end Verif
