import Verif.Spec.InputSites
import Mathlib.Data.List.Forall2
import Mathlib.Data.List.Nodup
import Mathlib.Tactic.Common
import Mathlib.Tactic.Ring

/-! # Invariants of `InputSites` -/

namespace Verif
namespace InputSites

variable {fold : String → String}

theorem longName_ne (x : NamedSite) : x.longName fold ≠ "" := by
  intro h
  have := congrArg String.length h
  simp [NamedSite.longName, String.length_append] at this

theorem name_given (x : NamedSite) (m : String) (h : m ≠ "") : ({ x with given := m } : NamedSite).name = m := by
  simp [NamedSite.name, h]

/-- What holds after any number of additions; `D` are the sites kept, as given. -/
structure Gen (fold : String → String) (D : List NamedSite) (S : InputSites) : Prop where
  keys : S.keys = (D.map (·.key fold)).reverse
  skus : ∀ n, S.skusOf n = ((D.filter (fun x => x.name = n)).map (fun x => fold x.site.device.sku)).reverse
  nd : (D.map fun x => (x.name, fold x.site.device.sku)).Nodup
  len : S.list.length = D.length
  shape : ∀ (i : Nat) (x y : NamedSite), D[i]? = some x → S.list[i]? = some y → y.site = x.site ∧ y.loc = x.loc
  sound : ∀ n i, S.byName.get? n = some i → ∃ y, S.list[i]? = some y ∧ y.name = n
  one : ∀ n, (D.filter (fun x => x.name = n)).length = 1 → ∃ i, S.byName.get? n = some i
  byId : ∀ n i, S.byId.get? n = some i → ∃ y, S.list[i]? = some y ∧ y.site.id = n
  ids : ∀ x ∈ D, ∃ i, S.byId.get? x.site.id = some i

theorem Gen.empty : Gen fold [] {} := by
  constructor <;> simp [skusOf]

theorem rename_skusOf (S : InputSites) (i : Nat) (n : String) : (S.rename fold i).skusOf n = S.skusOf n := by
  unfold rename; split <;> rfl

theorem rename_keys (S : InputSites) (i : Nat) : (S.rename fold i).keys = S.keys := by
  unfold rename; split <;> rfl

theorem rename_byId (S : InputSites) (i : Nat) : (S.rename fold i).byId = S.byId := by
  unfold rename; split <;> rfl

theorem rename_len (S : InputSites) (i : Nat) : (S.rename fold i).list.length = S.list.length := by
  unfold rename; split <;> simp

theorem rename_list (S : InputSites) (i : Nat) {x : NamedSite} (h : S.list[i]? = some x) (j : Nat) :
    (S.rename fold i).list[j]? = if j = i then some { x with given := x.longName fold } else S.list[j]? := by
  unfold rename
  rw [h]
  simp only [List.getElem?_set]
  by_cases c : i = j
  · subst c
    have : i < S.list.length := (List.getElem?_eq_some_iff.1 h).1
    simp [this]
  · simp [c, Ne.symm c]

theorem rename_byName (S : InputSites) (i : Nat) {x : NamedSite} (h : S.list[i]? = some x) (n : String) :
    (S.rename fold i).byName.get? n =
      if x.longName fold = n then some i else if x.name = n then none else S.byName.get? n := by
  unfold rename
  rw [h]
  simp only [Dict.get?_set, Dict.get?_del]

/-- Renaming keeps the directory sound. -/
theorem rename_sound {S : InputSites} (hs : ∀ n i, S.byName.get? n = some i → ∃ y, S.list[i]? = some y ∧ y.name = n)
    (i : Nat) {x : NamedSite} (h : S.list[i]? = some x) (n : String) (j : Nat)
    (hj : (S.rename fold i).byName.get? n = some j) : ∃ y, (S.rename fold i).list[j]? = some y ∧ y.name = n := by
  rw [rename_byName S i h] at hj
  rw [rename_list S i h]
  split at hj
  · rename_i c
    simp only [Option.some.injEq] at hj
    subst hj
    exact ⟨_, if_pos rfl, by rw [name_given _ _ (longName_ne x)]; exact c⟩
  · split at hj
    · simp at hj
    · rename_i c1 c2
      obtain ⟨y, hy, hn⟩ := hs n j hj
      have : j ≠ i := by
        rintro rfl
        rw [h] at hy
        simp only [Option.some.injEq] at hy
        subst hy
        exact c2 hn
      exact ⟨y, by rw [if_neg this]; exact hy, hn⟩

theorem rename_shape {S : InputSites} (i : Nat) {x : NamedSite} (h : S.list[i]? = some x) (j : Nat) {y : NamedSite}
    (hy : (S.rename fold i).list[j]? = some y) : ∃ z, S.list[j]? = some z ∧ y.site = z.site ∧ y.loc = z.loc := by
  rw [rename_list S i h] at hy
  split at hy
  · rename_i c
    subst c
    simp only [Option.some.injEq] at hy
    subst hy
    exact ⟨x, h, rfl, rfl⟩
  · exact ⟨y, hy, rfl, rfl⟩

theorem filter_append_len {D : List NamedSite} {x : NamedSite} (n : String) :
    ((D ++ [x]).filter (fun y => y.name = n)) =
      if x.name = n then D.filter (fun y => y.name = n) ++ [x] else D.filter (fun y => y.name = n) := by
  rw [List.filter_append]
  by_cases c : x.name = n <;> simp [c]

/-- A site with a new name. -/
theorem Gen.fresh {D : List NamedSite} {S : InputSites} (g : Gen fold D S) (x : NamedSite)
    (h : S.skusOf x.name = []) :
    Gen fold (D ++ [x]) ({ S with keys := x.key fold :: S.keys }.insert fold x) := by
  have h0 : D.filter (fun y => y.name = x.name) = [] := by
    have := g.skus x.name
    rw [h] at this
    simpa using this.symm
  have e : ({ S with keys := x.key fold :: S.keys } : InputSites).insert fold x =
      { list := S.list ++ [x], skus := S.skus.set x.name [fold x.site.device.sku],
        byName := S.byName.set x.name S.list.length, byId := S.byId.set x.site.id S.list.length,
        keys := x.key fold :: S.keys } := by
    unfold insert
    have : ({ S with keys := x.key fold :: S.keys } : InputSites).skusOf x.name = [] := h
    simp [this]
  rw [e]
  constructor
  · simp [g.keys]
  · intro n
    simp only [skusOf, Dict.get?_set]
    rw [filter_append_len]
    by_cases c : x.name = n
    · subst c; simp [h0]
    · simp only [c, if_false]
      exact g.skus n
  · rw [List.map_append, List.nodup_append]
    refine ⟨g.nd, by simp, ?_⟩
    intro a ha b hb
    simp only [List.map_cons, List.map_nil, List.mem_singleton] at hb
    subst hb
    rintro rfl
    obtain ⟨y, hy, e⟩ := List.mem_map.1 ha
    have : y ∈ D.filter (fun y => y.name = x.name) := by
      simp only [Prod.mk.injEq] at e
      simp [hy, e.1]
    rw [h0] at this
    simp at this
  · simp [g.len]
  · intro i a b ha hb
    by_cases c : i < D.length
    · rw [List.getElem?_append_left c] at ha
      simp only at hb
      rw [List.getElem?_append_left (by rw [g.len]; exact c)] at hb
      exact g.shape i a b ha hb
    · simp only at hb
      rw [List.getElem?_append_right (by omega)] at ha
      rw [List.getElem?_append_right (by rw [g.len]; omega), g.len] at hb
      rw [ha] at hb
      simp only [Option.some.injEq] at hb
      subst hb
      exact ⟨rfl, rfl⟩
  · intro n i hi
    simp only [Dict.get?_set] at hi
    split at hi
    · rename_i c
      simp only [Option.some.injEq] at hi
      subst hi
      exact ⟨x, by simp, c⟩
    · obtain ⟨y, hy, hn⟩ := g.sound n i hi
      exact ⟨y, by simp only; rw [List.getElem?_append_left (List.getElem?_eq_some_iff.1 hy).1]; exact hy, hn⟩
  · intro n hn
    rw [filter_append_len] at hn
    simp only [Dict.get?_set]
    by_cases c : x.name = n
    · exact ⟨_, if_pos c⟩
    · simp only [c, if_false] at hn ⊢
      exact g.one n hn
  · intro n i hi
    simp only [Dict.get?_set] at hi
    split at hi
    · rename_i c
      simp only [Option.some.injEq] at hi
      subst hi
      exact ⟨x, by simp, c⟩
    · obtain ⟨y, hy, hn⟩ := g.byId n i hi
      exact ⟨y, by simp only; rw [List.getElem?_append_left (List.getElem?_eq_some_iff.1 hy).1]; exact hy, hn⟩
  · intro y hy
    simp only [Dict.get?_set]
    by_cases c : x.site.id = y.site.id
    · exact ⟨_, if_pos c⟩
    · simp only [c, if_false]
      rcases List.mem_append.1 hy with hy | hy
      · exact g.ids y hy
      · simp only [List.mem_singleton] at hy
        subst hy
        exact absurd rfl c

/-- What holds in the middle of an addition of a site with name `m`. -/
structure Mid (fold : String → String) (D : List NamedSite) (S : InputSites) (m : String) : Prop where
  skus : ∀ n, S.skusOf n = ((D.filter (fun x => x.name = n)).map (fun x => fold x.site.device.sku)).reverse
  len : S.list.length = D.length
  shape : ∀ (i : Nat) (x y : NamedSite), D[i]? = some x → S.list[i]? = some y → y.site = x.site ∧ y.loc = x.loc
  sound : ∀ n i, S.byName.get? n = some i → ∃ y, S.list[i]? = some y ∧ y.name = n
  one : ∀ n, n ≠ m → (D.filter (fun x => x.name = n)).length = 1 → ∃ i, S.byName.get? n = some i
  byId : ∀ n i, S.byId.get? n = some i → ∃ y, S.list[i]? = some y ∧ y.site.id = n
  ids : ∀ x ∈ D, ∃ i, S.byId.get? x.site.id = some i

theorem Gen.mid {D : List NamedSite} {S : InputSites} (g : Gen fold D S) (m : String) (K : List SiteKey) :
    Mid fold D { S with keys := K } m :=
  ⟨g.skus, g.len, g.shape, g.sound, fun n _ => g.one n, g.byId, g.ids⟩

/-- Renaming the site with this name. -/
theorem Mid.rename {D : List NamedSite} {S : InputSites} {m : String} (g : Mid fold D S m) {i : Nat}
    (h : S.byName.get? m = some i) : Mid fold D (S.rename fold i) m := by
  obtain ⟨x, hx, hm⟩ := g.sound m i h
  constructor
  · intro n; rw [rename_skusOf]; exact g.skus n
  · rw [rename_len]; exact g.len
  · intro j a b ha hb
    obtain ⟨z, hz, e1, e2⟩ := rename_shape i hx j hb
    obtain ⟨f1, f2⟩ := g.shape j a z ha hz
    exact ⟨e1.trans f1, e2.trans f2⟩
  · exact fun n j => rename_sound g.sound i hx n j
  · intro n hn h1
    obtain ⟨j, hj⟩ := g.one n hn h1
    rw [rename_byName S i hx]
    by_cases c : x.longName fold = n
    · exact ⟨i, if_pos c⟩
    · rw [if_neg c, if_neg (by rw [hm]; exact Ne.symm hn)]
      exact ⟨j, hj⟩
  · intro n j hj
    rw [rename_byId] at hj
    obtain ⟨y, hy, hn⟩ := g.byId n j hj
    rw [rename_list S i hx]
    by_cases c : j = i
    · subst c
      rw [hx] at hy
      simp only [Option.some.injEq] at hy
      subst hy
      exact ⟨_, if_pos rfl, hn⟩
    · exact ⟨y, by rw [if_neg c]; exact hy, hn⟩
  · intro y hy
    rw [rename_byId]
    exact g.ids y hy

/-- The state before the last renaming. -/
def put (fold : String → String) (S : InputSites) (x : NamedSite) : InputSites :=
  { S with
    skus := S.skus.set x.name (fold x.site.device.sku :: S.skusOf x.name)
    list := S.list ++ [x]
    byId := S.byId.set x.site.id S.list.length }

theorem insert_eq (S : InputSites) (x : NamedSite) (h : S.skusOf x.name ≠ []) :
    S.insert fold x = (put fold S x).rename fold S.list.length := by
  unfold insert put
  have : (fold x.site.device.sku :: S.skusOf x.name).length > 1 := by
    rcases hK : S.skusOf x.name with _ | ⟨a, r⟩
    · exact absurd hK h
    · simp
  simp only [this, if_true]

theorem put_at (S : InputSites) (x : NamedSite) : (put fold S x).list[S.list.length]? = some x := by
  simp [put]

/-- A site with a name that is taken. -/
theorem Mid.insert {D : List NamedSite} {S : InputSites} {x : NamedSite} (g : Mid fold D S x.name)
    (hk : S.keys = ((D ++ [x]).map (·.key fold)).reverse)
    (nd : ((D ++ [x]).map fun x => (x.name, fold x.site.device.sku)).Nodup)
    (h : S.skusOf x.name ≠ []) : Gen fold (D ++ [x]) (S.insert fold x) := by
  rw [insert_eq S x h]
  have hx := put_at (fold := fold) S x
  constructor
  · rw [rename_keys]; exact hk
  · intro n
    rw [rename_skusOf]
    simp only [skusOf, put, Dict.get?_set]
    rw [filter_append_len]
    by_cases c : x.name = n
    · subst c
      have := g.skus x.name
      simp only [skusOf] at this
      simp [this]
    · simp only [c, if_false]
      exact g.skus n
  · exact nd
  · rw [rename_len]; simp [put, g.len]
  · intro j a b ha hb
    obtain ⟨z, hz, e1, e2⟩ := rename_shape _ hx j hb
    have : z.site = a.site ∧ z.loc = a.loc := by
      simp only [put] at hz
      by_cases c : j < D.length
      · rw [List.getElem?_append_left c] at ha
        rw [List.getElem?_append_left (by rw [g.len]; exact c)] at hz
        exact g.shape j a z ha hz
      · rw [List.getElem?_append_right (by omega)] at ha
        rw [List.getElem?_append_right (by rw [g.len]; omega), g.len] at hz
        rw [ha] at hz
        simp only [Option.some.injEq] at hz
        subst hz
        exact ⟨rfl, rfl⟩
    exact ⟨e1.trans this.1, e2.trans this.2⟩
  · refine fun n j => rename_sound ?_ _ hx n j
    intro n i hi
    obtain ⟨y, hy, hn⟩ := g.sound n i hi
    exact ⟨y, by simp only [put]; rw [List.getElem?_append_left (List.getElem?_eq_some_iff.1 hy).1]; exact hy, hn⟩
  · intro n hn
    rw [filter_append_len] at hn
    rw [rename_byName _ _ hx]
    by_cases c : x.name = n
    · subst c
      exfalso
      simp only [if_true, List.length_append, List.length_singleton] at hn
      apply h
      rw [g.skus]
      have : (D.filter (fun y => y.name = x.name)).length = 0 := by omega
      simp [List.length_eq_zero_iff.1 this]
    · simp only [c, if_false] at hn ⊢
      obtain ⟨i, hi⟩ := g.one n (Ne.symm c) hn
      by_cases d : x.longName fold = n
      · exact ⟨_, if_pos d⟩
      · exact ⟨i, by rw [if_neg d]; exact hi⟩
  · intro n i hi
    rw [rename_byId] at hi
    rw [rename_list _ _ hx]
    simp only [put, Dict.get?_set] at hi
    split at hi
    · rename_i c
      simp only [Option.some.injEq] at hi
      subst hi
      exact ⟨_, if_pos rfl, c⟩
    · obtain ⟨y, hy, hn⟩ := g.byId n i hi
      have hlt := (List.getElem?_eq_some_iff.1 hy).1
      refine ⟨y, ?_, hn⟩
      rw [if_neg (by omega)]
      simp only [put]
      rw [List.getElem?_append_left hlt]
      exact hy
  · intro y hy
    rw [rename_byId]
    simp only [put, Dict.get?_set]
    by_cases c : x.site.id = y.site.id
    · exact ⟨_, if_pos c⟩
    · simp only [c, if_false]
      rcases List.mem_append.1 hy with hy | hy
      · exact g.ids y hy
      · simp only [List.mem_singleton] at hy
        subst hy
        exact absurd rfl c

theorem renameFirst_eq (S : InputSites) {n : String} {i : Nat} (h : (S.skusOf n).length = 1)
    (hi : S.byName.get? n = some i) : S.renameFirst fold n = .ok (S.rename fold i) := by
  unfold renameFirst
  rw [if_pos h, hi]

/-- One addition: refused, ignored or carried out. -/
theorem Gen.add {D : List NamedSite} {S : InputSites} (g : Gen fold D S) (x : NamedSite) :
    ((∃ y ∈ D, y.key fold = x.key fold) ∧ S.add fold x = .ok S) ∨
    ((∀ y ∈ D, y.key fold ≠ x.key fold) ∧
      (∃ y ∈ D, y.name = x.name ∧ fold y.site.device.sku = fold x.site.device.sku) ∧ S.add fold x = .error .data) ∨
    ((∀ y ∈ D, y.key fold ≠ x.key fold) ∧
      (∀ y ∈ D, y.name = x.name → fold y.site.device.sku ≠ fold x.site.device.sku) ∧
      ∃ S', S.add fold x = .ok S' ∧ Gen fold (D ++ [x]) S' ∧
        ((D.filter (fun y => y.name = x.name) = [] ∧
            S' = ({ S with keys := x.key fold :: S.keys } : InputSites).insert fold x) ∨
          (∃ i, (D.filter (fun y => y.name = x.name)).length = 1 ∧ S.byName.get? x.name = some i ∧
            S' = (({ S with keys := x.key fold :: S.keys } : InputSites).rename fold i).insert fold x) ∨
          (2 ≤ (D.filter (fun y => y.name = x.name)).length ∧
            S' = ({ S with keys := x.key fold :: S.keys } : InputSites).insert fold x))) := by
  have hk : S.keys.contains (x.key fold) = true ↔ ∃ y ∈ D, y.key fold = x.key fold := by
    rw [List.contains_iff_mem, g.keys]
    simp
  have hf : (S.skusOf x.name).contains (fold x.site.device.sku) = true ↔
      ∃ y ∈ D, y.name = x.name ∧ fold y.site.device.sku = fold x.site.device.sku := by
    rw [List.contains_iff_mem, g.skus]
    simp only [List.mem_reverse, List.mem_map, List.mem_filter, decide_eq_true_eq]
    constructor
    · rintro ⟨y, ⟨h1, h2⟩, h3⟩; exact ⟨y, h1, h2, h3⟩
    · rintro ⟨y, h1, h2, h3⟩; exact ⟨y, ⟨h1, h2⟩, h3⟩
  unfold InputSites.add
  by_cases c1 : S.keys.contains (x.key fold) = true
  · left
    exact ⟨hk.1 c1, by rw [if_pos c1]⟩
  have n1 : ∀ y ∈ D, y.key fold ≠ x.key fold := fun y hy e => c1 (hk.2 ⟨y, hy, e⟩)
  right
  rw [if_neg c1]
  by_cases c2 : (S.skusOf x.name).contains (fold x.site.device.sku) = true
  · left
    exact ⟨n1, hf.1 c2, by rw [if_pos c2]⟩
  right
  have n2 : ∀ y ∈ D, y.name = x.name → fold y.site.device.sku ≠ fold x.site.device.sku :=
    fun y hy e1 e2 => c2 (hf.2 ⟨y, hy, e1, e2⟩)
  refine ⟨n1, n2, ?_⟩
  rw [if_neg c2]
  have nd : ((D ++ [x]).map fun x => (x.name, fold x.site.device.sku)).Nodup := by
    rw [List.map_append, List.nodup_append]
    refine ⟨g.nd, by simp, ?_⟩
    intro a ha b hb
    simp only [List.map_cons, List.map_nil, List.mem_singleton] at hb
    subst hb
    rintro rfl
    obtain ⟨y, hy, e⟩ := List.mem_map.1 ha
    simp only [Prod.mk.injEq] at e
    exact n2 y hy e.1 e.2
  have keq : x.key fold :: S.keys = ((D ++ [x]).map (·.key fold)).reverse := by simp [g.keys]
  by_cases c3 : S.skusOf x.name = []
  · have : ({ S with keys := x.key fold :: S.keys } : InputSites).renameFirst fold x.name =
        .ok { S with keys := x.key fold :: S.keys } := by
      unfold renameFirst
      rw [if_neg]
      show ¬ (S.skusOf x.name).length = 1
      rw [c3]; simp
    rw [this]
    refine ⟨_, rfl, g.fresh x c3, Or.inl ⟨?_, rfl⟩⟩
    have := g.skus x.name
    rw [c3] at this
    simpa using this.symm
  by_cases c4 : (S.skusOf x.name).length = 1
  · have l1 : (D.filter (fun y => y.name = x.name)).length = 1 := by
      rw [g.skus] at c4
      simpa using c4
    obtain ⟨i, hi⟩ := g.one _ l1
    have : ({ S with keys := x.key fold :: S.keys } : InputSites).renameFirst fold x.name =
        .ok (({ S with keys := x.key fold :: S.keys } : InputSites).rename fold i) := renameFirst_eq _ c4 hi
    rw [this]
    refine ⟨_, rfl, ?_, Or.inr (Or.inl ⟨i, l1, hi, rfl⟩)⟩
    refine ((g.mid x.name (x.key fold :: S.keys)).rename hi).insert ?_ nd ?_
    · rw [rename_keys]; exact keq
    · rw [rename_skusOf]; exact c3
  · have : ({ S with keys := x.key fold :: S.keys } : InputSites).renameFirst fold x.name =
        .ok { S with keys := x.key fold :: S.keys } := by
      unfold renameFirst
      rw [if_neg]
      exact c4
    rw [this]
    refine ⟨_, rfl, (g.mid x.name (x.key fold :: S.keys)).insert keq nd c3, Or.inr (Or.inr ⟨?_, rfl⟩)⟩
    have l := g.skus x.name
    have l1 : (S.skusOf x.name).length = (D.filter (fun y => y.name = x.name)).length := by rw [l]; simp
    have l2 : (S.skusOf x.name).length ≠ 0 := fun e => c3 (List.length_eq_zero_iff.1 e)
    omega

/-- What holds in addition if the names are clear. -/
structure Fine (fold : String → String) (D : List NamedSite) (S : InputSites) : Prop where
  fin : ∀ (i : Nat) (x y : NamedSite), D[i]? = some x → S.list[i]? = some y →
    (Shared fold D x → y = { x with given := x.longName fold }) ∧ (¬ Shared fold D x → y = x)
  found : ∀ (i : Nat) (y : NamedSite), S.list[i]? = some y → S.byName.get? y.name = some i

theorem Fine.empty : Fine fold [] {} := by constructor <;> simp

theorem at_of {D : List NamedSite} {S : InputSites} (len : S.list.length = D.length) {i : Nat} {y : NamedSite}
    (h : S.list[i]? = some y) : ∃ x, D[i]? = some x := by
  have := (List.getElem?_eq_some_iff.1 h).1
  exact ⟨D[i]'(by omega), List.getElem?_eq_getElem _⟩

theorem list_of {D : List NamedSite} {S : InputSites} (len : S.list.length = D.length) {i : Nat} {y : NamedSite}
    (h : D[i]? = some y) : ∃ x, S.list[i]? = some x := by
  have := (List.getElem?_eq_some_iff.1 h).1
  exact ⟨S.list[i]'(by omega), List.getElem?_eq_getElem _⟩

theorem at_inj {D : List NamedSite} (nd : (D.map fun x => (x.name, fold x.site.device.sku)).Nodup) {i j : Nat}
    {a b : NamedSite} (ha : D[i]? = some a) (hb : D[j]? = some b) (h1 : a.name = b.name)
    (h2 : fold a.site.device.sku = fold b.site.device.sku) : i = j := by
  obtain ⟨li, ea⟩ := List.getElem?_eq_some_iff.1 ha
  obtain ⟨lj, eb⟩ := List.getElem?_eq_some_iff.1 hb
  have := (List.Nodup.getElem_inj_iff nd (i := i) (j := j) (hi := by simpa using li) (hj := by simpa using lj)).1
    (by simp [ea, eb, h1, h2])
  exact this

/-- The name of a stored site. -/
theorem Fine.name {D : List NamedSite} {S : InputSites} (f : Fine fold D S) {i : Nat} {x y : NamedSite}
    (hx : D[i]? = some x) (hy : S.list[i]? = some y) :
    (Shared fold D x ∧ y.name = x.longName fold) ∨ (¬ Shared fold D x ∧ y.name = x.name) := by
  by_cases c : Shared fold D x
  · left
    rw [(f.fin i x y hx hy).1 c, name_given _ _ (longName_ne x)]
    exact ⟨c, rfl⟩
  · right
    rw [(f.fin i x y hx hy).2 c]
    exact ⟨c, rfl⟩

theorem _root_.Verif.Shared.mono {D E : List NamedSite} {x : NamedSite} (h : Shared fold D x) (hs : ∀ y ∈ D, y ∈ E) :
    Shared fold E x := by
  obtain ⟨y, hy, h⟩ := h
  exact ⟨y, hs y hy, h⟩

theorem shared_append {D : List NamedSite} {x z : NamedSite} (h : z.name ≠ x.name) :
    Shared fold (D ++ [x]) z ↔ Shared fold D z := by
  constructor
  · rintro ⟨y, hy, e, ne⟩
    rcases List.mem_append.1 hy with hy | hy
    · exact ⟨y, hy, e, ne⟩
    · simp only [List.mem_singleton] at hy
      subst hy
      exact absurd e.symm h
  · exact fun h => h.mono fun y hy => List.mem_append_left _ hy

theorem insert_fresh (S : InputSites) (x : NamedSite) (h : S.skusOf x.name = []) :
    (S.insert fold x).list = S.list ++ [x] ∧ (S.insert fold x).byName = S.byName.set x.name S.list.length := by
  unfold insert
  simp [h]

theorem long_inj {x y : NamedSite} (h : x.name = y.name) (e : x.longName fold = y.longName fold) :
    fold x.site.device.sku = fold y.site.device.sku := by
  unfold NamedSite.longName at e
  rw [h] at e
  have := congrArg String.toList e
  simp only [String.toList_append] at this
  exact String.toList_inj.1 (List.append_cancel_left this)

theorem Fine.fresh {A D : List NamedSite} {S : InputSites} {x : NamedSite} (clr : ClearNames fold A)
    (sub : ∀ y ∈ D, y ∈ A) (hx : x ∈ A) (g : Gen fold D S) (f : Fine fold D S) (K : List SiteKey)
    (h : D.filter (fun y => y.name = x.name) = []) : Fine fold (D ++ [x]) (({ S with keys := K } : InputSites).insert fold x) := by
  have hs : ({ S with keys := K } : InputSites).skusOf x.name = [] := by
    have := g.skus x.name
    rw [h] at this
    exact this
  obtain ⟨e1, e2⟩ := insert_fresh (fold := fold) _ x hs
  have nn : ∀ y ∈ D, y.name ≠ x.name := by
    intro y hy e
    have : y ∈ D.filter (fun y => y.name = x.name) := by simp [hy, e]
    rw [h] at this
    simp at this
  have nsh : ¬ Shared fold (D ++ [x]) x := by
    rintro ⟨y, hy, e, ne⟩
    rcases List.mem_append.1 hy with hy | hy
    · exact nn y hy e
    · simp only [List.mem_singleton] at hy
      subst hy
      exact ne rfl
  constructor
  · intro i a b ha hb
    rw [e1] at hb
    by_cases c : i < D.length
    · rw [List.getElem?_append_left c] at ha
      rw [List.getElem?_append_left (by simpa [g.len] using c)] at hb
      rw [shared_append (nn a (List.mem_of_getElem? ha))]
      exact f.fin i a b ha hb
    · rw [List.getElem?_append_right (by omega)] at ha
      rw [List.getElem?_append_right (by simp only [g.len]; omega)] at hb
      simp only [g.len] at hb
      rw [ha] at hb
      simp only [Option.some.injEq] at hb
      subst hb
      have : a = x := by
        have := List.mem_of_getElem? ha
        simpa using this
      subst this
      exact ⟨fun c => absurd c nsh, fun _ => rfl⟩
  · intro i y hy
    rw [e1] at hy
    rw [e2, Dict.get?_set]
    by_cases c : i < D.length
    · rw [List.getElem?_append_left (by simpa [g.len] using c)] at hy
      obtain ⟨z, hz⟩ := at_of g.len hy
      have hzD := List.mem_of_getElem? hz
      rw [if_neg]
      · exact f.found i y hy
      · intro e
        rcases f.name hz hy with ⟨sh, q⟩ | ⟨_, q⟩
        · exact clr.given x hx z (sub z hzD) (sh.mono sub) (e.trans q)
        · exact nn z hzD (q.symm.trans e.symm)
    · rw [List.getElem?_append_right (by simp only [g.len]; omega)] at hy
      have hi : i = S.list.length := by
        have := (List.getElem?_eq_some_iff.1 hy).1
        simp only [List.length_singleton, g.len] at this ⊢
        omega
      have : y = x := by
        have := List.mem_of_getElem? hy
        simpa using this
      subst this
      rw [if_pos rfl, hi]

/-- Adding a site whose name all stored sites with that name have given up. -/
theorem Fine.last {A D : List NamedSite} {S : InputSites} {x : NamedSite} (clr : ClearNames fold A)
    (sub : ∀ y ∈ D, y ∈ A) (hx : x ∈ A) (len : S.list.length = D.length)
    (hs : S.skusOf x.name ≠ [])
    (n2 : ∀ y ∈ D, y.name = x.name → fold y.site.device.sku ≠ fold x.site.device.sku)
    (ex : ∃ y ∈ D, y.name = x.name)
    (fin : ∀ (i : Nat) (z y : NamedSite), D[i]? = some z → S.list[i]? = some y →
      (Shared fold (D ++ [x]) z → y = { z with given := z.longName fold }) ∧
      (¬ Shared fold (D ++ [x]) z → y = z))
    (found : ∀ (i : Nat) (y : NamedSite), S.list[i]? = some y → S.byName.get? y.name = some i) :
    Fine fold (D ++ [x]) (S.insert fold x) := by
  rw [insert_eq S x hs]
  have hp := put_at (fold := fold) S x
  have subx : ∀ y ∈ D ++ [x], y ∈ A := by
    intro y hy
    rcases List.mem_append.1 hy with hy | hy
    · exact sub y hy
    · simp only [List.mem_singleton] at hy; subst hy; exact hx
  have shx : Shared fold (D ++ [x]) x := by
    obtain ⟨y, hy, e⟩ := ex
    exact ⟨y, List.mem_append_left _ hy, e, n2 y hy e⟩
  constructor
  · intro i a b ha hb
    rw [rename_list _ _ hp] at hb
    by_cases c : i < D.length
    · rw [List.getElem?_append_left c] at ha
      rw [if_neg (by omega)] at hb
      simp only [put] at hb
      rw [List.getElem?_append_left (by omega)] at hb
      exact fin i a b ha hb
    · have hi : i = D.length := by
        have := (List.getElem?_eq_some_iff.1 ha).1
        simp only [List.length_append, List.length_singleton] at this
        omega
      subst hi
      simp only [List.getElem?_concat_length, Option.some.injEq] at ha
      subst ha
      rw [if_pos len.symm] at hb
      simp only [Option.some.injEq] at hb
      subst hb
      exact ⟨fun _ => rfl, fun c => absurd shx c⟩
  · intro i y hy
    rw [rename_list _ _ hp] at hy
    rw [rename_byName _ _ hp]
    split at hy
    · rename_i c
      subst c
      simp only [Option.some.injEq] at hy
      subst hy
      rw [name_given _ _ (longName_ne x), if_pos rfl]
    · rename_i c
      have hlt : i < S.list.length := by
        have := (List.getElem?_eq_some_iff.1 hy).1
        simp only [put, List.length_append, List.length_singleton] at this
        omega
      simp only [put] at hy
      rw [List.getElem?_append_left hlt] at hy
      obtain ⟨z, hz⟩ := at_of len hy
      have hzD := List.mem_of_getElem? hz
      have hzA := sub z hzD
      have hn : (Shared fold (D ++ [x]) z ∧ y.name = z.longName fold) ∨
          (¬ Shared fold (D ++ [x]) z ∧ y.name = z.name) := by
        by_cases c : Shared fold (D ++ [x]) z
        · left
          rw [(fin i z y hz hy).1 c, name_given _ _ (longName_ne z)]
          exact ⟨c, rfl⟩
        · right
          rw [(fin i z y hz hy).2 c]
          exact ⟨c, rfl⟩
      have w1 : x.longName fold ≠ y.name := by
        intro e
        rcases hn with ⟨sh, q⟩ | ⟨_, q⟩
        · have nm := clr.long x hx z hzA (shx.mono subx) (sh.mono subx) (e.trans q)
          exact n2 z hzD nm.symm (long_inj nm (e.trans q)).symm
        · exact clr.given z hzA x hx (shx.mono subx) (q.symm.trans e.symm)
      have w2 : x.name ≠ y.name := by
        intro e
        rcases hn with ⟨sh, q⟩ | ⟨nsh, q⟩
        · exact clr.given x hx z hzA (sh.mono subx) (e.trans q)
        · refine nsh ⟨x, by simp, e.trans q, ?_⟩
          exact fun e2 => n2 z hzD (q.symm.trans e.symm) e2.symm
      rw [if_neg w1, if_neg w2]
      exact found i y hy

theorem two_of {L : List NamedSite} (h : 2 ≤ L.length) : ∃ a b, ∃ i j : Nat, i ≠ j ∧ L[i]? = some a ∧ L[j]? = some b := by
  refine ⟨L[0], L[1], 0, 1, by omega, by simp, by simp⟩

theorem Fine.add {A D : List NamedSite} {S S' : InputSites} {x : NamedSite} (clr : ClearNames fold A)
    (sub : ∀ y ∈ D, y ∈ A) (hx : x ∈ A) (g : Gen fold D S) (f : Fine fold D S)
    (n2 : ∀ y ∈ D, y.name = x.name → fold y.site.device.sku ≠ fold x.site.device.sku)
    (h : (D.filter (fun y => y.name = x.name) = [] ∧
            S' = ({ S with keys := x.key fold :: S.keys } : InputSites).insert fold x) ∨
          (∃ i, (D.filter (fun y => y.name = x.name)).length = 1 ∧ S.byName.get? x.name = some i ∧
            S' = (({ S with keys := x.key fold :: S.keys } : InputSites).rename fold i).insert fold x) ∨
          (2 ≤ (D.filter (fun y => y.name = x.name)).length ∧
            S' = ({ S with keys := x.key fold :: S.keys } : InputSites).insert fold x)) :
    Fine fold (D ++ [x]) S' := by
  have skl : ∀ n, (S.skusOf n).length = (D.filter (fun y => y.name = n)).length := by
    intro n; rw [g.skus]; simp
  rcases h with ⟨h0, rfl⟩ | ⟨i, h1, hi, rfl⟩ | ⟨h2, rfl⟩
  · exact f.fresh clr sub hx g _ h0
  · set S0 : InputSites := { S with keys := x.key fold :: S.keys } with hS0
    obtain ⟨y, hy, hn⟩ := g.sound _ _ hi
    obtain ⟨z, hz⟩ := at_of g.len hy
    have hzD := List.mem_of_getElem? hz
    obtain ⟨o, ho⟩ := List.length_eq_one_iff.1 h1
    have uniq : ∀ w ∈ D, w.name = x.name → w = o := by
      intro w hw e
      have : w ∈ D.filter (fun y => y.name = x.name) := by simp [hw, e]
      rw [ho] at this
      simpa using this
    have hzn : ¬ Shared fold D z ∧ y.name = z.name := by
      rcases f.name hz hy with ⟨sh, q⟩ | q
      · exact absurd (hn.symm.trans q) (clr.given x hx z (sub z hzD) (sh.mono sub))
      · exact q
    have hyz : y = z := (f.fin i z y hz hy).2 hzn.1
    subst hyz
    have ho' : y = o := uniq y hzD hn
    have idx : ∀ j w, D[j]? = some w → w.name = x.name → j = i := by
      intro j w hw e
      have : w = y := (uniq w (List.mem_of_getElem? hw) e).trans ho'.symm
      subst this
      exact at_inj g.nd hw hz rfl rfl
    have hyS : S0.list[i]? = some y := hy
    refine Fine.last clr sub hx ?_ ?_ n2 ⟨y, hzD, hn⟩ ?_ ?_
    · rw [rename_len]; exact g.len
    · rw [rename_skusOf]
      intro e
      have : (S.skusOf x.name).length = 0 := by
        show (S0.skusOf x.name).length = 0
        rw [e]; rfl
      rw [skl] at this
      omega
    · intro j w v hw hv
      rw [rename_list _ _ hyS] at hv
      split at hv
      · rename_i c
        subst c
        rw [hw] at hz
        simp only [Option.some.injEq] at hz hv
        subst hz
        subst hv
        refine ⟨fun _ => rfl, fun c => absurd ?_ c⟩
        exact ⟨x, by simp, hn.symm, (n2 w hzD hn).symm⟩
      · rename_i c
        have : w.name ≠ x.name := fun e => c (idx j w hw e)
        rw [shared_append this]
        exact f.fin j w v hw hv
    · intro j v hv
      rw [rename_list _ _ hyS] at hv
      rw [rename_byName _ _ hyS]
      split at hv
      · rename_i c
        subst c
        simp only [Option.some.injEq] at hv
        subst hv
        rw [name_given _ _ (longName_ne y), if_pos rfl]
      · rename_i c
        have hv' : S.list[j]? = some v := hv
        obtain ⟨w, hw⟩ := at_of g.len hv'
        have hwD := List.mem_of_getElem? hw
        have hne : w.name ≠ x.name := fun e => c (idx j w hw e)
        have shy : Shared fold (D ++ [x]) y := ⟨x, by simp, hn.symm, (n2 y hzD hn).symm⟩
        have subx : ∀ y ∈ D ++ [x], y ∈ A := by
          intro y hy
          rcases List.mem_append.1 hy with hy | hy
          · exact sub y hy
          · simp only [List.mem_singleton] at hy; subst hy; exact hx
        rw [if_neg, if_neg]
        · exact f.found j v hv'
        · intro e
          rcases f.name hw hv' with ⟨sh, q⟩ | ⟨_, q⟩
          · exact clr.given y (sub y hzD) w (sub w hwD) (sh.mono sub) (e.trans q)
          · exact hne (q.symm.trans (e.symm.trans hn))
        · intro e
          rcases f.name hw hv' with ⟨sh, q⟩ | ⟨_, q⟩
          · exact hne ((clr.long y (sub y hzD) w (sub w hwD) (shy.mono subx) (sh.mono sub) (e.trans q)).symm.trans hn)
          · exact clr.given w (sub w hwD) y (sub y hzD) (shy.mono subx) (q.symm.trans e.symm)
  · have : ∃ y ∈ D, y.name = x.name := by
      obtain ⟨a, _, i, _, _, ha, _⟩ := two_of h2
      have := List.mem_of_getElem? ha
      simp only [List.mem_filter, decide_eq_true_eq] at this
      exact ⟨a, this.1, this.2⟩
    have hsh : ∀ w ∈ D, w.name = x.name → Shared fold D w := by
      intro w hw e
      by_contra c
      have all : ∀ v ∈ D.filter (fun y => y.name = x.name), fold v.site.device.sku = fold w.site.device.sku := by
        intro v hv
        simp only [List.mem_filter, decide_eq_true_eq] at hv
        by_contra d
        exact c ⟨v, hv.1, hv.2.trans e.symm, d⟩
      have ndf : ((D.filter (fun y => y.name = x.name)).map fun x => (x.name, fold x.site.device.sku)).Nodup :=
        g.nd.sublist (List.filter_sublist.map _)
      obtain ⟨a, b, i, j, ne, ha, hb⟩ := two_of h2
      have hma := List.mem_of_getElem? ha
      have hmb := List.mem_of_getElem? hb
      apply ne
      refine at_inj ndf ha hb ?_ ((all a hma).trans (all b hmb).symm)
      simp only [List.mem_filter, decide_eq_true_eq] at hma hmb
      exact hma.2.trans hmb.2.symm
    refine Fine.last clr sub hx g.len ?_ n2 this ?_ f.found
    · intro e
      have : (S.skusOf x.name).length = 0 := by
        show (({ S with keys := x.key fold :: S.keys } : InputSites).skusOf x.name).length = 0
        rw [e]; rfl
      rw [skl] at this
      omega
    · intro j w v hw hv
      by_cases c : w.name = x.name
      · have sh := hsh w (List.mem_of_getElem? hw) c
        exact ⟨fun _ => (f.fin j w v hw hv).1 sh,
          fun d => absurd (sh.mono fun y hy => List.mem_append_left _ hy) d⟩
      · rw [shared_append c]
        exact f.fin j w v hw hv

end InputSites
end Verif
