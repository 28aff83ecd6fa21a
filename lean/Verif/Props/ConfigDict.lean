import Verif.Spec.ConfigDict
import Mathlib.Tactic.NormNum

/-!
# C32: configurations survive a round trip
-/

namespace Verif

namespace CfgDict

/-! ## Dictionaries -/

theorem set_new {d : Dict String PyVal} {k : String} (h : k ∉ d.keys) (x : PyVal) : d.set k x = d ++ [(k, x)] := by
  induction d with
  | nil => rfl
  | cons e d ih =>
    obtain ⟨k', y⟩ := e
    simp only [Dict.keys, List.map_cons, List.mem_cons, not_or] at h
    have : ¬ k' = k := fun hk => h.1 hk.symm
    simp only [Dict.set, if_neg this, List.cons_append, List.cons.injEq, true_and]
    exact ih h.2

theorem set_self {d : Dict String PyVal} {k : String} {x : PyVal} (h : d.get? k = some x) : d.set k x = d := by
  induction d with
  | nil => simp at h
  | cons e d ih =>
    obtain ⟨k', y⟩ := e
    by_cases c : k' = k
    · simp only [Dict.get?_cons, if_pos c, Option.some.injEq] at h
      simp [Dict.set, c, h]
    · simp only [Dict.get?_cons, if_neg c] at h
      simp [Dict.set, c, ih h]

theorem mem_set {d : Dict String PyVal} {k : String} {x : PyVal} {e : String × PyVal} (h : e ∈ d.set k x) :
    e = (k, x) ∨ e ∈ d := by
  induction d with
  | nil => simpa [Dict.set] using h
  | cons f d ih =>
    obtain ⟨k', y⟩ := f
    by_cases c : k' = k
    · simp only [Dict.set, if_pos c, List.mem_cons] at h
      rcases h with h | h
      · exact .inl h
      · exact .inr (List.mem_cons_of_mem _ h)
    · simp only [Dict.set, if_neg c, List.mem_cons] at h
      rcases h with h | h
      · exact .inr (h ▸ List.mem_cons_self)
      · exact (ih h).imp id (List.mem_cons_of_mem _)

theorem mem_set_self (d : Dict String PyVal) (k : String) (x : PyVal) : (k, x) ∈ d.set k x :=
  Dict.mem_of_get? _ (by simp [Dict.get?_set])

theorem mem_set_keep {T : String → PyVal} {d : Dict String PyVal} {k j : String} (h : (j, T j) ∈ d) :
    (j, T j) ∈ d.set k (T k) := by
  induction d with
  | nil => simp at h
  | cons f d ih =>
    obtain ⟨k', y⟩ := f
    by_cases c : k' = k
    · simp only [Dict.set, if_pos c, List.mem_cons] at h ⊢
      rcases h with h | h
      · left
        have h1 : j = k' := congrArg Prod.fst h
        rw [h1, c]
      · exact .inr h
    · simp only [Dict.set, if_neg c, List.mem_cons] at h ⊢
      exact h.imp id ih

theorem get?_foldl {l d : Dict String PyVal} (nd : l.NodupKeys) (k : String) :
    (l.foldl (fun (d : Dict String PyVal) e => d.set e.1 e.2) d).get? k = (l.get? k).or (d.get? k) := by
  induction l generalizing d with
  | nil => simp
  | cons e l ih =>
    obtain ⟨j, x⟩ := e
    have nd' : Dict.NodupKeys l := (List.nodup_cons.mp nd).2
    have hj : j ∉ Dict.keys l := (List.nodup_cons.mp nd).1
    rw [List.foldl_cons, ih nd']
    simp only [Dict.get?_set, Dict.get?_cons]
    by_cases c : j = k
    · have : Dict.get? l k = none := (Dict.get?_eq_none_iff l k).mpr (c ▸ hj)
      simp [c, this]
    · simp [c]

theorem nd_foldl {l d : Dict String PyVal} (nd : d.NodupKeys) :
    (l.foldl (fun (d : Dict String PyVal) e => d.set e.1 e.2) d).NodupKeys := by
  induction l generalizing d with
  | nil => exact nd
  | cons e l ih => exact ih (nd.set _ _)

theorem ofPairs_self {l : Dict String PyVal} (nd : l.NodupKeys) : ofPairs l = l := by
  suffices h : ∀ (l d : Dict String PyVal), Dict.NodupKeys (d ++ l) →
      l.foldl (fun (d : Dict String PyVal) e => d.set e.1 e.2) d = d ++ l from h l [] (by simpa using nd)
  intro l
  induction l with
  | nil => intro d _; simp
  | cons e l ih =>
    intro d hd
    obtain ⟨k, x⟩ := e
    have hk : k ∉ Dict.keys d := by
      intro hk
      have := hd
      simp only [Dict.NodupKeys, Dict.keys, List.map_append, List.map_cons] at this
      exact (List.nodup_append.mp this).2.2 k hk k (by simp) rfl
    rw [List.foldl_cons, set_new hk, ih]
    · simp
    · simpa using hd

theorem get?_merge {a b : Dict String PyVal} (na : a.NodupKeys) (nb : b.NodupKeys) (k : String) :
    (mergeDict a b).get? k = (b.get? k).or (a.get? k) := by
  unfold mergeDict ofPairs
  rw [List.foldl_append, get?_foldl nb, get?_foldl na]
  simp

theorem nd_ofPairs (l : Dict String PyVal) : (ofPairs l).NodupKeys := nd_foldl Dict.nodupKeys_nil

theorem nd_merge (a b : Dict String PyVal) : (mergeDict a b).NodupKeys := nd_ofPairs _

/-! ## The constructor after `from_dict` -/

variable {env : CfgEnv}

/-- What `from_dict` has collected. -/
def Good (c : Cls) (T : String → PyVal) (kw : Dict String PyVal) : Prop := ∀ e ∈ kw, e.1 ∈ c.args ∧ e.2 = T e.1

/-- A table of parameter values. -/
structure Table (c : Cls) (T : String → PyVal) : Prop where
  supp : ∀ n, n ∉ c.args → T n = .none
  dflt : ∀ p ∈ c.params, T p.name = .none → p.default = some .none

theorem args_nodup (c : Cls) : c.args.Nodup := by cases c <;> decide

theorem find_param (c : Cls) {p : Param} (h : p ∈ c.params) : c.params.find? (fun q => q.name = p.name) = some p := by
  have nd := args_nodup c
  unfold Cls.args at nd
  generalize c.params = l at h nd ⊢
  induction l with
  | nil => simp at h
  | cons q l ih =>
    simp only [List.map_cons, List.nodup_cons] at nd
    rcases List.mem_cons.mp h with h | h
    · simp [h]
    · have : ¬ q.name = p.name := fun hq => nd.1 (hq ▸ List.mem_map_of_mem h)
      simp [this, ih h nd.2]

theorem isSome_iff (x : PyVal) : x.isSome = true ↔ x ≠ .none := by cases x <;> simp [PyVal.isSome]

theorem Good.get {c : Cls} {T : String → PyVal} {kw : Dict String PyVal} (g : Good c T kw) {n : String} {x : PyVal}
    (h : kw.get? n = some x) : n ∈ c.args ∧ x = T n := g _ (Dict.mem_of_get? _ h)

theorem value_eq {c : Cls} {T : String → PyVal} {kw : Dict String PyVal} (t : Table c T) (g : Good c T kw)
    (all : ∀ n ∈ c.args, T n ≠ .none → (n, T n) ∈ kw) : c.value (kw.filter fun e => e.2.isSome) = T := by
  have g' : Good c T (kw.filter fun e => e.2.isSome) := fun e he => g e (List.mem_of_mem_filter he)
  funext n
  unfold Cls.value
  by_cases hn : n ∈ c.args
  · obtain ⟨p, hp, rfl⟩ := List.mem_map.mp hn
    by_cases hT : T p.name = .none
    · have : Dict.get? (kw.filter fun e => e.2.isSome) p.name = none := by
        rw [Dict.get?_eq_none_iff]
        intro hk
        obtain ⟨e, he, hek⟩ := List.mem_map.mp hk
        have h2 := (List.mem_filter.mp he).2
        rw [(g' e he).2, hek, hT] at h2
        simp [PyVal.isSome] at h2
      rw [this, find_param c hp]
      simp [t.dflt p hp hT, hT]
    · have hm : (p.name, T p.name) ∈ kw.filter fun e => e.2.isSome :=
        List.mem_filter.mpr ⟨all _ hn hT, (isSome_iff _).mpr hT⟩
      have : ∃ x, Dict.get? (kw.filter fun e => e.2.isSome) p.name = some x :=
        (Dict.mem_keys_iff _ _).mp (List.mem_map.mpr ⟨_, hm, rfl⟩)
      obtain ⟨x, hx⟩ := this
      rw [hx, (g'.get hx).2]
  · have : Dict.get? (kw.filter fun e => e.2.isSome) n = none := by
      cases h : Dict.get? (kw.filter fun e => e.2.isSome) n with
      | none => rfl
      | some x => exact absurd (g'.get h).1 hn
    rw [this, t.supp n hn]
    have : c.params.find? (fun p => p.name = n) = none := by
      rw [List.find?_eq_none]
      intro p hp
      have : p.name ≠ n := fun h => hn (h ▸ List.mem_map_of_mem hp)
      simpa using this
    rw [this]
    rfl

theorem make_eq {c : Cls} {T : String → PyVal} {kw : Dict String PyVal} (t : Table c T) (g : Good c T kw)
    (all : ∀ n ∈ c.args, T n ≠ .none → (n, T n) ∈ kw) :
    c.make env (kw.filter fun e => e.2.isSome) =
      (runChecks T (c.checks env)).bind fun _ => (c.init env T).map (PyVal.obj c) := by
  unfold Cls.make
  rw [value_eq t g all, if_neg, if_neg]
  · simp only [List.any_eq_true, not_exists, not_and]
    intro e he
    have := (g e (List.mem_of_mem_filter he)).1
    simp [this]
  · simp only [List.any_eq_true, not_exists, not_and]
    intro p hp
    cases hd : p.default with
    | some x => simp
    | none =>
      have hT : T p.name ≠ .none := fun h => by simp [t.dflt p hp h] at hd
      have hm : (p.name, T p.name) ∈ kw.filter fun e => e.2.isSome :=
        List.mem_filter.mpr ⟨all _ (List.mem_map_of_mem hp) hT, (isSome_iff _).mpr hT⟩
      have := (Dict.mem_keys_iff _ _).mp (List.mem_map.mpr ⟨_, hm, rfl⟩ : p.name ∈ Dict.keys _)
      simp [(Dict.has_iff _ _).mpr this]

/-- What `from_dict` needs to find the values `T`. -/
structure Fits (env : CfgEnv) (make : Cls → Dict String PyVal → Except Err PyVal) (c : Cls) (T : String → PyVal)
    (prop : Dict String PyVal) : Prop where
  nd : prop.NodupKeys
  low : ∀ k ∈ prop.keys, env.fold k = k
  arg : ∀ k x, prop.get? k = some x → k ∈ c.args → ∀ acc : Dict String PyVal,
    fromStep env make c prop acc k x = .ok (if (T k).isSome then acc.set k (T k) else acc)
  sub : ∀ k d, prop.get? k = some (.dict d) → k ∉ c.args → ∀ e ∈ d, env.fold e.1 ∈ c.args → e.2 = T (env.fold e.1)
  all : ∀ k ∈ c.args, k ∈ prop.keys

theorem Good.set {c : Cls} {T : String → PyVal} {kw : Dict String PyVal} (g : Good c T kw) {k : String} (h : k ∈ c.args) :
    Good c T (kw.set k (T k)) := by
  intro e he
  rcases mem_set he with rfl | he
  · exact ⟨h, rfl⟩
  · exact g e he

theorem fold_sub {c : Cls} {T : String → PyVal} {d : List (String × PyVal)}
    (h : ∀ e ∈ d, env.fold e.1 ∈ c.args → e.2 = T (env.fold e.1)) {acc : Dict String PyVal} (g : Good c T acc) :
    let r : Dict String PyVal :=
      d.foldl (fun acc e => if c.args.contains (env.fold e.1) then Dict.set acc (env.fold e.1) e.2 else acc) acc
    Good c T r ∧ ∀ j, (j, T j) ∈ acc → (j, T j) ∈ r := by
  induction d generalizing acc with
  | nil => exact ⟨g, fun _ h => h⟩
  | cons e d ih =>
    have h' : ∀ e ∈ d, env.fold e.1 ∈ c.args → e.2 = T (env.fold e.1) := fun f hf => h f (List.mem_cons_of_mem _ hf)
    simp only [List.foldl_cons]
    by_cases hc : env.fold e.1 ∈ c.args
    · have hv := h e List.mem_cons_self hc
      rw [if_pos (by simpa using hc), hv]
      have := ih h' (g.set hc)
      exact ⟨this.1, fun j hj => this.2 j (mem_set_keep hj)⟩
    · rw [if_neg (by simpa using hc)]
      exact ih h' g

theorem Fits.loop {make : Cls → Dict String PyVal → Except Err PyVal} {c : Cls} {T : String → PyVal}
    {prop : Dict String PyVal} (f : Fits env make c T prop) :
    ∃ kw, fromLoop env make c prop [] (ofPairs (prop.map fun e => (env.fold e.1, e.2))) = .ok kw ∧ Good c T kw ∧
      ∀ n ∈ c.args, T n ≠ .none → (n, T n) ∈ kw := by
  have hmap : (prop.map fun e => (env.fold e.1, e.2)) = prop := by
    conv => rhs; rw [← List.map_id prop]
    refine List.map_congr_left fun e he => ?_
    rw [f.low e.1 (List.mem_map_of_mem he)]
    rfl
  rw [hmap, ofPairs_self f.nd]
  suffices h : ∀ (l : List (String × PyVal)) (acc : Dict String PyVal), (∀ e ∈ l, prop.get? e.1 = some e.2) →
      Good c T acc → ∃ kw, fromLoop env make c prop acc l = .ok kw ∧ Good c T kw ∧ (∀ j, (j, T j) ∈ acc → (j, T j) ∈ kw) ∧
      ∀ e ∈ l, e.1 ∈ c.args → T e.1 ≠ .none → (e.1, T e.1) ∈ kw by
    obtain ⟨kw, h1, h2, -, h4⟩ := h prop [] (fun e he => (Dict.mem_iff_get? f.nd _ _).mp he) (fun e he => by simp at he)
    refine ⟨kw, h1, h2, fun n hn hT => ?_⟩
    obtain ⟨e, he, rfl⟩ := List.mem_map.mp (f.all n hn)
    exact h4 e he hn hT
  intro l
  induction l with
  | nil => intro acc _ g; exact ⟨acc, rfl, g, fun _ h => h, fun e he => by simp at he⟩
  | cons e l ih =>
    intro acc hl g
    have he := hl e List.mem_cons_self
    have hl' : ∀ e ∈ l, prop.get? e.1 = some e.2 := fun e he => hl e (List.mem_cons_of_mem _ he)
    simp only [fromLoop]
    by_cases hc : e.1 ∈ c.args
    · rw [f.arg e.1 e.2 he hc]
      simp only [Except.bind]
      by_cases hs : (T e.1).isSome = true
      · rw [if_pos hs]
        obtain ⟨kw, h1, h2, h3, h4⟩ := ih _ hl' (g.set hc)
        refine ⟨kw, h1, h2, fun j hj => h3 j (mem_set_keep hj), fun e' he' hc' hT => ?_⟩
        rcases List.mem_cons.mp he' with rfl | he'
        · exact h3 _ (mem_set_self _ _ _)
        · exact h4 e' he' hc' hT
      · rw [if_neg hs]
        obtain ⟨kw, h1, h2, h3, h4⟩ := ih _ hl' g
        refine ⟨kw, h1, h2, h3, fun e' he' hc' hT => ?_⟩
        rcases List.mem_cons.mp he' with rfl | he'
        · exact absurd ((isSome_iff _).mpr hT) hs
        · exact h4 e' he' hc' hT
    · have hstep : ∃ acc', fromStep env make c prop acc e.1 e.2 = .ok acc' ∧ Good c T acc' ∧
          ∀ j, (j, T j) ∈ acc → (j, T j) ∈ acc' := by
        unfold fromStep
        rw [if_neg (by simpa using hc)]
        obtain ⟨k, x⟩ := e
        cases x with
        | dict d =>
          have := fold_sub (f.sub k d he hc) g
          exact ⟨_, rfl, this.1, this.2⟩
        | _ => exact ⟨acc, rfl, g, fun _ h => h⟩
      obtain ⟨acc', s1, s2, s3⟩ := hstep
      rw [s1]
      simp only [Except.bind]
      obtain ⟨kw, h1, h2, h3, h4⟩ := ih _ hl' s2
      refine ⟨kw, h1, h2, fun j hj => h3 j (s3 j hj), fun e' he' hc' hT => ?_⟩
      rcases List.mem_cons.mp he' with rfl | he'
      · exact absurd hc' hc
      · exact h4 e' he' hc' hT

/-- `from_dict` of the class of depth `n`. -/
def maker (env : CfgEnv) : Nat → Cls → Dict String PyVal → Except Err PyVal
  | 0 => fun _ _ => .error .planner
  | m + 1 => fromDictN env m

theorem Fits.from {n : Nat} {c : Cls} {T : String → PyVal} {prop : Dict String PyVal} (t : Table c T)
    (f : Fits env (maker env n) c T prop) :
    fromDictN env n c prop = (runChecks T (c.checks env)).bind fun _ => (c.init env T).map (PyVal.obj c) := by
  obtain ⟨kw, h1, h2, h3⟩ := f.loop
  have : fromDictN env n c prop = (fromLoop env (maker env n) c prop []
      (ofPairs (prop.map fun e => (env.fold e.1, e.2)))).bind fun kw => c.make env (kw.filter fun e => e.2.isSome) := by
    cases n <;> rw [fromDictN] <;> rfl
  rw [this, h1]
  exact make_eq t h2 h3

/-! ## `to_dict` -/

theorem ser_keys {a s : Dict String PyVal} (h : serAttrs a = .ok s) : s.keys = a.keys := by
  induction a generalizing s with
  | nil =>
    simp only [serAttrs, Except.ok.injEq] at h
    subst h
    rfl
  | cons e a ih =>
    obtain ⟨k, x⟩ := e
    simp only [serAttrs] at h
    cases hx : x.ser with
    | error err => simp [hx, Except.bind] at h
    | ok y =>
      cases ha : serAttrs a with
      | error err => simp [hx, ha, Except.bind, Except.map] at h
      | ok s' =>
        simp only [hx, ha, Except.bind, Except.map, Except.ok.injEq] at h
        subst h
        have := ih ha
        simp only [Dict.keys] at this ⊢
        simp [this]

theorem ser_get {a s : Dict String PyVal} (h : serAttrs a = .ok s) {k : String} {y : PyVal} (hy : s.get? k = some y) :
    ∃ x, a.get? k = some x ∧ x.ser = .ok y := by
  induction a generalizing s with
  | nil =>
    simp only [serAttrs, Except.ok.injEq] at h
    subst h
    simp at hy
  | cons e a ih =>
    obtain ⟨j, x⟩ := e
    simp only [serAttrs] at h
    cases hx : x.ser with
    | error err => simp [hx, Except.bind] at h
    | ok y' =>
      cases ha : serAttrs a with
      | error err => simp [hx, ha, Except.bind, Except.map] at h
      | ok s' =>
        simp only [hx, ha, Except.bind, Except.map, Except.ok.injEq] at h
        subst h
        by_cases c : j = k
        · simp only [Dict.get?_cons, if_pos c, Option.some.injEq] at hy ⊢
          exact ⟨x, rfl, hy ▸ hx⟩
        · simp only [Dict.get?_cons, if_neg c] at hy ⊢
          exact ih ha hy

theorem nd_ser {a s : Dict String PyVal} (h : serAttrs a = .ok s) (nd : a.NodupKeys) : s.NodupKeys := by
  unfold Dict.NodupKeys
  rw [ser_keys h]
  exact nd

/-- Values of the annotated type that are not objects or lists of devices; `dsm_file_paths` as it is kept. -/
inductive Simple : Kind → PyVal → Prop
  | num (q : ℚ) : Simple .num (.num q)
  | numNone : Simple .num? .none
  | numSome (q : ℚ) : Simple .num? (.num q)
  | str (s : String) : Simple .str (.str s)
  | strNone : Simple .str? .none
  | strSome (s : String) : Simple .str? (.str s)
  | enum (e : EnumCls) (n : String) (q : ℚ) : (n, q) ∈ e.members → Simple (.enum e) (.enum e n)
  | enumNone (e : EnumCls) : Simple (.enum? e) .none
  | enumSome (e : EnumCls) (n : String) (q : ℚ) : (n, q) ∈ e.members → Simple (.enum? e) (.enum e n)
  | paths (xs : List String) : Simple .paths? (.list (xs.map PyVal.str))

theorem serItems_strs (xs : List String) : serItems (xs.map PyVal.str) = .ok (xs.map PyVal.str) := by
  induction xs with
  | nil => rfl
  | cons x xs ih => simp [serItems, ih, Except.map]

theorem convItems_strs (make : Cls → Dict String PyVal → Except Err PyVal) (key : String) (prop : Dict String PyVal)
    (xs : List String) : convItems make key prop (xs.map PyVal.str) = .ok (xs.map PyVal.str) := by
  induction xs with
  | nil => rfl
  | cons x xs ih => simp [convItems, ih, Except.map]

/-- The enum of a kind. -/
def kindEnum : Kind → Option EnumCls
  | .enum e => some e
  | .enum? e => some e
  | _ => none

/-- The class of a kind. -/
def kindClass : Kind → Option Cls
  | .obj c => some c
  | .devices => some .device
  | _ => none

theorem enum_param (c : Cls) : ∀ p ∈ c.params, enumOf p.name = kindEnum p.kind := by
  have : (c.params.all fun p => decide (enumOf p.name = kindEnum p.kind)) = true := by cases c <;> rfl
  intro p hp
  simpa using List.all_eq_true.mp this p hp

theorem class_param (c : Cls) : ∀ p ∈ c.params, classOf p.name = kindClass p.kind := by
  have : (c.params.all fun p => decide (classOf p.name = kindClass p.kind)) = true := by cases c <;> rfl
  intro p hp
  simpa using List.all_eq_true.mp this p hp

theorem member_upper (low : env.Case) {e : EnumCls} {n : String} {q : ℚ} (h : (n, q) ∈ e.members) :
    e.fromString env (.str n) = .ok (.enum e n) := by
  have h1 : (e.members.all fun m => m.1.toList.all fun c => c == '_' || c.isUpper) = true := by cases e <;> decide
  have hu := low.upper n (List.all_eq_true.mp h1 _ h)
  simp only [EnumCls.fromString]
  rw [hu, if_pos]
  simp only [List.contains_eq_mem, decide_eq_true_eq]
  exact List.mem_map.mpr ⟨_, h, rfl⟩

/-- A parameter that is no object gets its value back. -/
theorem step_simple (low : env.Case) {c : Cls} {p : Param} (hp : p ∈ c.params) {x y : PyVal} (hx : Simple p.kind x)
    (hs : x.ser = .ok y) (make : Cls → Dict String PyVal → Except Err PyVal) (prop acc : Dict String PyVal) :
    fromStep env make c prop acc p.name y = .ok (if x.isSome then acc.set p.name x else acc) := by
  have ha : c.args.contains p.name = true := by
    have h : p.name ∈ c.args := List.mem_map_of_mem hp
    simpa using h
  unfold fromStep
  rw [if_pos ha, enum_param c p hp]
  generalize p.kind = k at hx
  cases hx with
  | paths xs =>
    simp only [PyVal.ser, serItems_strs, Except.map, Except.ok.injEq] at hs
    subst hs
    simp [kindEnum, convItems_strs, Except.map, PyVal.isSome]
  | enum e n q hm =>
    simp only [PyVal.ser, Except.ok.injEq] at hs
    subst hs
    simp [kindEnum, member_upper low hm, Except.map, PyVal.isSome]
  | enumSome e n q hm =>
    simp only [PyVal.ser, Except.ok.injEq] at hs
    subst hs
    simp [kindEnum, member_upper low hm, Except.map, PyVal.isSome]
  | _ =>
    simp only [PyVal.ser, Except.ok.injEq] at hs
    subst hs
    simp [kindEnum, PyVal.isSome]

theorem ser_dict {x : PyVal} {d : List (String × PyVal)} (h : x.ser = .ok (.dict d)) :
    ∃ c a, x = .obj c a ∧ serAttrs a = .ok d := by
  cases x with
  | obj c a =>
    simp only [PyVal.ser] at h
    cases ha : serAttrs a with
    | error e => simp [ha, Except.map] at h
    | ok s =>
      simp only [ha, Except.map, Except.ok.injEq, PyVal.dict.injEq] at h
      exact ⟨c, a, rfl, h ▸ ha⟩
  | list xs =>
    simp only [PyVal.ser] at h
    cases ha : serItems xs with
    | error e => simp [ha, Except.map] at h
    | ok s => simp [ha, Except.map] at h
  | _ => simp [PyVal.ser] at h

/-- An object without objects in it: its attributes and its parameters. -/
structure Flat (env : CfgEnv) (c : Cls) (T : String → PyVal) (a : Dict String PyVal) : Prop where
  nd : a.NodupKeys
  low : ∀ k ∈ a.keys, env.fold k = k
  get : ∀ n ∈ c.args, a.get? n = some (T n)
  kind : ∀ p ∈ c.params, Simple p.kind (T p.name)
  extra : ∀ k c' b, k ∉ c.args → a.get? k ≠ some (.obj c' b)

/-- A dictionary that `from_dict` of an outer object hands down. -/
structure Outer (env : CfgEnv) (c : Cls) (T : String → PyVal) (prop : Dict String PyVal) : Prop where
  nd : prop.NodupKeys
  low : ∀ k ∈ prop.keys, env.fold k = k
  arg : ∀ k x, prop.get? k = some x → k ∈ c.args → (T k).ser = .ok x
  sub : ∀ k d, prop.get? k = some (.dict d) → k ∉ c.args → ∀ e ∈ d, env.fold e.1 ∈ c.args → e.2 = T (env.fold e.1)

theorem Outer.nil (env : CfgEnv) (c : Cls) (T : String → PyVal) : Outer env c T [] where
  nd := Dict.nodupKeys_nil
  low := by simp [Dict.keys]
  arg := by simp
  sub := by simp

theorem keys_merge {a b : Dict String PyVal} (na : a.NodupKeys) (nb : b.NodupKeys) {k : String} :
    k ∈ (mergeDict a b).keys ↔ k ∈ b.keys ∨ k ∈ a.keys := by
  simp only [Dict.mem_keys_iff, get?_merge na nb]
  cases hb : Dict.get? b k <;> simp

theorem Flat.fits (low : env.Case) {n : Nat} {c : Cls} {T : String → PyVal} {a s prop : Dict String PyVal}
    (f : Flat env c T a) (o : Outer env c T prop) (hs : serAttrs a = .ok s) :
    Fits env (maker env n) c T (mergeDict s prop) where
  nd := nd_merge _ _
  low := by
    intro k hk
    rcases (keys_merge (nd_ser hs f.nd) o.nd).mp hk with h | h
    · exact o.low k h
    · exact f.low k (ser_keys hs ▸ h)
  arg := by
    intro k x hx hk acc
    obtain ⟨p, hp, rfl⟩ := List.mem_map.mp hk
    refine step_simple low hp (f.kind p hp) ?_ _ _ _
    rw [get?_merge (nd_ser hs f.nd) o.nd] at hx
    cases hb : Dict.get? prop p.name with
    | some x' =>
      simp only [hb, Option.some_or, Option.some.injEq] at hx
      exact hx ▸ o.arg _ _ hb hk
    | none =>
      simp only [hb, Option.none_or] at hx
      obtain ⟨x', h1, h2⟩ := ser_get hs hx
      rw [f.get _ hk, Option.some.injEq] at h1
      exact h1 ▸ h2
  sub := by
    intro k d hd hk
    rw [get?_merge (nd_ser hs f.nd) o.nd] at hd
    cases hb : Dict.get? prop k with
    | some x' =>
      simp only [hb, Option.some_or, Option.some.injEq] at hd
      exact o.sub k d (hd ▸ hb) hk
    | none =>
      simp only [hb, Option.none_or] at hd
      obtain ⟨x', h1, h2⟩ := ser_get hs hd
      obtain ⟨c', b, rfl, -⟩ := ser_dict h2
      exact absurd h1 (f.extra k c' b hk)
  all := by
    intro k hk
    refine (keys_merge (nd_ser hs f.nd) o.nd).mpr (.inr ?_)
    rw [ser_keys hs, Dict.mem_keys_iff]
    exact ⟨_, f.get k hk⟩

theorem Flat.from (low : env.Case) {n : Nat} {c : Cls} {T : String → PyVal} {a s prop : Dict String PyVal}
    (t : Table c T) (f : Flat env c T a) (o : Outer env c T prop) (hs : serAttrs a = .ok s) :
    fromDictN env n c (mergeDict s prop) =
      (runChecks T (c.checks env)).bind fun _ => (c.init env T).map (PyVal.obj c) :=
  (f.fits low o hs).from t

theorem merge_nil {s : Dict String PyVal} (nd : s.NodupKeys) : mergeDict s [] = s := by
  unfold mergeDict
  rw [List.append_nil, ofPairs_self nd]

/-! ## What constructors return -/

/-- May a value of the kind be `None`? -/
def kindOpt : Kind → Bool
  | .num? => true
  | .str? => true
  | .enum? _ => true
  | .paths? => true
  | _ => false

/-- Is the default value `None`? -/
def noneDefault : Option PyVal → Bool
  | some .none => true
  | _ => false

theorem opt_default (c : Cls) {p : Param} (hp : p ∈ c.params) (hk : kindOpt p.kind = true)
    (hn : p.name ≠ "maximum_los_distance") : p.default = some .none := by
  have : (c.params.all fun p => !kindOpt p.kind || p.name == "maximum_los_distance" || noneDefault p.default) = true := by
    cases c <;> rfl
  have := List.all_eq_true.mp this p hp
  simp only [hk, hn, Bool.not_true, beq_iff_eq, Bool.false_or, Bool.or_eq_true, false_or] at this
  cases hd : p.default with
  | none => simp [hd, noneDefault] at this
  | some x => cases x <;> simp [hd, noneDefault] at this ⊢

theorem hasKind_none {k : Kind} (h : HasKind env k .none) : kindOpt k = true := by
  generalize hx : PyVal.none = x at h
  cases h with
  | obj c kw o _ hm =>
    exfalso
    subst hx
    unfold Cls.make at hm
    split at hm
    · cases hm
    · split at hm
      · cases hm
      · cases h1 : runChecks (c.value kw) (c.checks env) with
        | error e => simp [h1, Except.bind] at hm
        | ok u =>
          cases h2 : c.init env (c.value kw) with
          | error e => simp [h1, h2, Except.bind, Except.map] at hm
          | ok a => simp [h1, h2, Except.bind, Except.map] at hm
  | _ => first | rfl | simp at hx

theorem default_kind (c : Cls) {p : Param} (hp : p ∈ c.params) {d : PyVal} (hd : p.default = some d) :
    HasKind env p.kind d := by
  have det : HasKind env (.obj .detection) defaultDetection := .obj .detection [] _ (by simp) rfl
  cases c <;> simp only [Cls.params, pNum, pNum?, pStr?, List.mem_cons, List.not_mem_nil, or_false] at hp <;>
    (repeat' (rcases hp with rfl | hp)) <;> (try subst hp) <;>
    (simp only [Option.some.injEq, reduceCtorEq] at hd) <;> (try subst hd) <;>
    first
      | exact .num _ | exact .numNone | exact .numSome _ | exact .str _ | exact .strNone | exact .pathsNone
      | exact .enumNone _ | exact det | exact .enum _ _ 2 (by decide) | exact .enum _ _ 3 (by decide)
      | exact .enum _ _ 20 (by decide)

/-- An object comes from a table of values of the annotated types. -/
theorem made {c : Cls} {o : PyVal} (h : HasKind env (.obj c) o) : ∃ (v : String → PyVal) (a : Dict String PyVal),
    o = .obj c a ∧ (∀ n, n ∉ c.args → v n = .none) ∧ (∀ p ∈ c.params, HasKind env p.kind (v p.name)) ∧
    runChecks v (c.checks env) = .ok () ∧ c.init env v = .ok a := by
  cases h with
  | obj _ kw _ hk hm =>
    unfold Cls.make at hm
    split at hm
    · cases hm
    · rename_i hreq
      split at hm
      · cases hm
      · rename_i hunk
        simp only [List.any_eq_true, not_exists, not_and] at hreq hunk
        cases h1 : runChecks (c.value kw) (c.checks env) with
        | error e => simp [h1, Except.bind] at hm
        | ok u =>
          cases h2 : c.init env (c.value kw) with
          | error e => simp [h1, h2, Except.bind, Except.map] at hm
          | ok a =>
            simp only [h1, h2, Except.bind, Except.map, Except.ok.injEq] at hm
            refine ⟨c.value kw, a, hm.symm, ?_, ?_, h1, h2⟩
            · intro n hn
              unfold Cls.value
              have hg : Dict.get? kw n = none := by
                cases hg : Dict.get? kw n with
                | none => rfl
                | some x => exact absurd (by simpa using hn) (hunk _ (Dict.mem_of_get? _ hg))
              have : c.params.find? (fun p => p.name = n) = none := by
                rw [List.find?_eq_none]
                intro p hp
                have : p.name ≠ n := fun h => hn (h ▸ List.mem_map_of_mem hp)
                simpa using this
              rw [hg, this]
              rfl
            · intro p hp
              unfold Cls.value
              cases hg : Dict.get? kw p.name with
              | some x => exact hk p hp x hg
              | none =>
                have hr := hreq p hp
                have hh : kw.has p.name = false := (Dict.has_eq_false_iff _ _).mpr hg
                rw [find_param c hp]
                cases hd : p.default with
                | none => simp [hd, hh] at hr
                | some d =>
                  simp only [Option.bind_some, hd, Option.getD_some]
                  exact default_kind c hp hd

theorem low_of (low : env.Case) {l : List String} (h : (l.all fun s => s.toList.all fun c => c == '_' || c.isLower) = true) :
    ∀ k ∈ l, env.fold k = k := fun k hk => low.fold k (List.all_eq_true.mp h k hk)

theorem HasKind.simple {k : Kind} {x : PyVal} (h : HasKind env k x) (h1 : kindClass k = none) (h2 : k ≠ .paths?) :
    Simple k x := by
  cases h with
  | num q => exact .num q
  | numNone => exact .numNone
  | numSome q => exact .numSome q
  | str q => exact .str q
  | strNone => exact .strNone
  | strSome q => exact .strSome q
  | enum e n q hm => exact .enum e n q hm
  | enumNone e => exact .enumNone e
  | enumSome e n q hm => exact .enumSome e n q hm
  | paths => exact absurd rfl h2
  | pathsNone => exact absurd rfl h2
  | devices => simp [kindClass] at h1
  | obj => simp [kindClass] at h1

theorem Simple.opt {k : Kind} (h : Simple k .none) : kindOpt k = true := by
  cases h <;> rfl

/-- Do all parameters have kinds without objects and lists? -/
theorem flat_kinds {c : Cls} (h : c = .sector ∨ c = .detection ∨ c = .system) {v : String → PyVal}
    (hk : ∀ p ∈ c.params, HasKind env p.kind (v p.name)) : ∀ p ∈ c.params, Simple p.kind (v p.name) := by
  intro p hp
  have : (c.params.all fun p => (kindClass p.kind).isNone && decide (p.kind ≠ .paths?)) = true := by
    rcases h with rfl | rfl | rfl <;> rfl
  have := List.all_eq_true.mp this p hp
  simp only [ne_eq, decide_not, Bool.and_eq_true, Option.isNone_iff_eq_none, Bool.not_eq_true',
    decide_eq_false_iff_not] at this
  exact HasKind.simple (hk p hp) this.1 this.2

theorem no_los {c : Cls} (h : c ≠ .los) : ∀ p ∈ c.params, p.name ≠ "maximum_los_distance" := by
  have : c = .los ∨ (c.params.all fun p => decide (p.name ≠ "maximum_los_distance")) = true := by
    cases c <;> first | exact .inl rfl | exact .inr rfl
  intro p hp
  simpa using List.all_eq_true.mp (this.resolve_left h) p hp

theorem table_simple {c : Cls} (h : c ≠ .los) {v : String → PyVal} (hs : ∀ n, n ∉ c.args → v n = .none)
    (hk : ∀ p ∈ c.params, Simple p.kind (v p.name)) : Table c v where
  supp := hs
  dflt := fun p hp hn => opt_default c hp (Simple.opt (hn ▸ hk p hp)) (no_los h p hp)

/-! ## Sectors and detection parameters -/

/-- A sector and its parameters. -/
structure SectorVal (env : CfgEnv) (v : String → PyVal) (ant scan rates : PyVal) : Prop where
  supp : ∀ n, n ∉ Cls.sector.args → v n = .none
  kind : ∀ p ∈ Cls.sector.params, Simple p.kind (v p.name)
  check : runChecks v (Cls.sector.checks env) = .ok ()
  ant : readData env.antenna (v "antenna_pattern_file_path") = .ok ant
  scan : readData env.scan (v "scan_pattern_file_path") = .ok scan
  rates : readRates env v = .ok rates

theorem readData_obj {f : String → Except Err String} {x y : PyVal} (h : readData f x = .ok y) (c : Cls)
    (b : List (String × PyVal)) : y ≠ .obj c b := by
  rintro rfl
  cases x with
  | str s => cases hf : f s <;> simp [readData, hf, Except.map] at h
  | _ => simp [readData] at h

theorem readRates_obj {v : String → PyVal} {y : PyVal} (h : readRates env v = .ok y) (c : Cls)
    (b : List (String × PyVal)) : y ≠ .obj c b := by
  rintro rfl
  unfold readRates at h
  split at h
  · simp at h
  · rename_i s _
    cases hf : env.rates s (v "minimum_mcs_level") (v "minimum_tx_power") (v "maximum_tx_power") <;>
      simp [hf, Except.map] at h
  · simp at h

/-- The attributes of `SectorParams`. -/
def sectorNames : List String := ["antenna_boresight_gain", "maximum_tx_power", "number_sectors_per_node",
  "horizontal_scan_range", "carrier_frequency", "thermal_noise_power", "noise_figure", "rain_rate",
  "link_availability_percentage", "tx_diversity_gain", "rx_diversity_gain", "tx_miscellaneous_loss",
  "rx_miscellaneous_loss", "minimum_mcs_level", "minimum_tx_power", "antenna_pattern_file_path", "antenna_pattern_data",
  "scan_pattern_file_path", "scan_pattern_data", "mcs_map_file_path", "mcs_map"]

theorem sector_keys (v : String → PyVal) (ant scan rates : PyVal) :
    (sectorAttrs v ant scan rates).keys = sectorNames := rfl

theorem plain_keys (v : String → PyVal) (l : List String) : (plain v l).keys = l := by
  simp [plain, Dict.keys, Function.comp_def]

theorem SectorVal.flat (low : env.Case) {v : String → PyVal} {ant scan rates : PyVal}
    (S : SectorVal env v ant scan rates) : Flat env .sector v (sectorAttrs v ant scan rates) where
  nd := by
    show sectorNames.Nodup
    decide
  low := low_of low (by rw [sector_keys]; decide +kernel)
  get := by
    intro n hn
    simp only [Cls.args, Cls.params, pNum, pNum?, pStr?, List.map_cons, List.map_nil, List.mem_cons, List.not_mem_nil,
      or_false] at hn
    repeat' (rcases hn with rfl | hn)
    all_goals (try subst hn)
    all_goals rfl
  kind := S.kind
  extra := by
    intro k c b hk hg
    have hm := Dict.mem_of_get? _ hg
    have : ((sectorAttrs v ant scan rates).take 16).all (fun e => Cls.sector.args.contains e.1) = true := rfl
    simp only [sectorAttrs, plain, List.map_cons, List.map_nil, List.cons_append, List.nil_append, List.mem_cons,
      List.not_mem_nil, or_false, Prod.mk.injEq] at hm
    have h1 := readData_obj S.ant c b
    have h2 := readData_obj S.scan c b
    have h3 := readRates_obj S.rates c b
    rcases hm with h | h | h | h | h | h | h | h | h | h | h | h | h | h | h | h | h | h | h | h | h
    all_goals first
      | exact h1 h.2.symm
      | exact h2 h.2.symm
      | exact h3 h.2.symm
      | exact hk (h.1 ▸ by decide)

theorem SectorVal.init {v : String → PyVal} {ant scan rates : PyVal} (S : SectorVal env v ant scan rates) :
    Cls.sector.init env v = .ok (sectorAttrs v ant scan rates) := by
  simp [Cls.init, initSector, S.ant, S.scan, S.rates, Except.bind, Except.map]

theorem SectorVal.from (low : env.Case) {n : Nat} {v : String → PyVal} {ant scan rates : PyVal}
    (S : SectorVal env v ant scan rates) {s prop : Dict String PyVal} (o : Outer env .sector v prop)
    (hs : serAttrs (sectorAttrs v ant scan rates) = .ok s) :
    fromDictN env n .sector (mergeDict s prop) = .ok (.obj .sector (sectorAttrs v ant scan rates)) := by
  rw [Flat.from low (table_simple (by decide) S.supp S.kind) (S.flat low) o hs, S.check, S.init]
  rfl

theorem sector_of {o : PyVal} (h : HasKind env (.obj .sector) o) : ∃ v ant scan rates,
    o = .obj .sector (sectorAttrs v ant scan rates) ∧ SectorVal env v ant scan rates := by
  obtain ⟨v, a, rfl, h1, h2, h3, h4⟩ := made h
  have hk := flat_kinds (.inl rfl) h2
  simp only [Cls.init, initSector] at h4
  cases ha : readData env.antenna (v "antenna_pattern_file_path") with
  | error e => simp [ha, Except.bind] at h4
  | ok ant =>
    cases hb : readData env.scan (v "scan_pattern_file_path") with
    | error e => simp [ha, hb, Except.bind] at h4
    | ok scan =>
      cases hc : readRates env v with
      | error e => simp [ha, hb, hc, Except.bind, Except.map] at h4
      | ok rates =>
        simp only [ha, hb, hc, Except.bind, Except.map, Except.ok.injEq] at h4
        exact ⟨v, ant, scan, rates, by rw [h4], h1, hk, h3, ha, hb, hc⟩

/-- The attributes of `SiteDetectionParams`. -/
def detNames : List String := ["dn_deployment", "detect_highest", "detect_centers", "detect_corners", "max_corner_angle"]

theorem detection_of {o : PyVal} (h : HasKind env (.obj .detection) o) : ∃ v, o = .obj .detection (plain v detNames) ∧
    (∀ n, n ∉ Cls.detection.args → v n = .none) ∧ (∀ p ∈ Cls.detection.params, Simple p.kind (v p.name)) ∧
    runChecks v (Cls.detection.checks env) = .ok () := by
  obtain ⟨v, a, rfl, h1, h2, h3, h4⟩ := made h
  simp only [Cls.init, Except.ok.injEq] at h4
  exact ⟨v, by rw [← h4]; rfl, h1, flat_kinds (.inr (.inl rfl)) h2, h3⟩

theorem detection_flat (low : env.Case) {v : String → PyVal} (hk : ∀ p ∈ Cls.detection.params, Simple p.kind (v p.name)) :
    Flat env .detection v (plain v detNames) where
  nd := by
    show detNames.Nodup
    decide
  low := low_of low (by rw [plain_keys]; decide +kernel)
  get := by
    intro n hn
    simp only [Cls.args, Cls.params, pNum, pNum?, List.map_cons, List.map_nil, List.mem_cons, List.not_mem_nil,
      or_false] at hn
    repeat' (rcases hn with rfl | hn)
    all_goals (try subst hn)
    all_goals rfl
  kind := hk
  extra := by
    intro k c b hk' hg
    have hm := Dict.mem_of_get? _ hg
    simp only [plain, detNames, List.map_cons, List.map_nil, List.mem_cons, List.not_mem_nil, or_false,
      Prod.mk.injEq] at hm
    rcases hm with h | h | h | h | h
    all_goals exact hk' (h.1 ▸ by decide)

/-! ## Devices -/

/-- The attributes of `DeviceData`. -/
def devNames : List String := ["device_sku", "sector_params", "node_capex", "number_of_nodes_per_site", "device_type"]

/-- A device and its attributes. -/
structure DeviceVal (env : CfgEnv) (T sv : String → PyVal) (ant scan rates : PyVal) : Prop where
  supp : ∀ n, n ∉ Cls.device.args → T n = .none
  sector : T "sector_params" = .obj .sector (sectorAttrs sv ant scan rates)
  val : SectorVal env sv ant scan rates
  sku : ∃ s, T "device_sku" = .str s
  capex : ∃ q, T "node_capex" = .num q
  nodes : ∃ q, T "number_of_nodes_per_site" = .num q
  type : Simple (.enum .device) (T "device_type")
  init : initDevice T = .ok (plain T devNames)

/-- What an outer object may hand down to a device and its sector. -/
structure OuterDev (env : CfgEnv) (sv : String → PyVal) (prop : Dict String PyVal) : Prop where
  nd : prop.NodupKeys
  low : ∀ k ∈ prop.keys, env.fold k = k
  dev : ∀ k ∈ prop.keys, k ∉ devNames
  arg : ∀ k x, prop.get? k = some x → k ∈ Cls.sector.args → (sv k).ser = .ok x
  sub : ∀ k d, prop.get? k = some (.dict d) → ∀ e ∈ d, env.fold e.1 ∉ devNames ∧ env.fold e.1 ∉ Cls.sector.args

theorem OuterDev.nil (env : CfgEnv) (sv : String → PyVal) : OuterDev env sv [] where
  nd := Dict.nodupKeys_nil
  low := by simp [Dict.keys]
  dev := by simp [Dict.keys]
  arg := by simp
  sub := by simp

theorem get?_plain (T : String → PyVal) {l : List String} {n : String} (h : n ∈ l) : (plain T l).get? n = some (T n) := by
  induction l with
  | nil => simp at h
  | cons m l ih =>
    simp only [plain, List.map_cons, Dict.get?_cons]
    by_cases c : m = n
    · simp [c]
    · rw [if_neg c]
      exact ih ((List.mem_cons.mp h).resolve_left fun hn => c hn.symm)

theorem get?_plain_inv (T : String → PyVal) {l : List String} {n : String} {x : PyVal} (h : (plain T l).get? n = some x) :
    n ∈ l ∧ x = T n := by
  have hm : n ∈ l := by
    have := (Dict.mem_keys_iff (plain T l) n).mpr ⟨x, h⟩
    rwa [plain_keys] at this
  rw [get?_plain T hm, Option.some.injEq] at h
  exact ⟨hm, h.symm⟩

theorem dev_disjoint : ∀ k ∈ devNames, k ∉ Cls.sector.args := by decide

/-- The sector in a device gets back its values. -/
theorem DeviceVal.outer (low : env.Case) {T sv : String → PyVal} {ant scan rates : PyVal}
    (D : DeviceVal env T sv ant scan rates) {s prop : Dict String PyVal} (o : OuterDev env sv prop)
    (hs : serAttrs (plain T devNames) = .ok s) : Outer env .sector sv (mergeDict s prop) where
  nd := nd_merge _ _
  low := by
    intro k hk
    have nds := nd_ser hs (by rw [Dict.NodupKeys, plain_keys]; decide)
    rcases (keys_merge nds o.nd).mp hk with h | h
    · exact o.low k h
    · rw [ser_keys hs, plain_keys] at h
      exact low_of low (l := devNames) (by decide +kernel) k h
  arg := by
    intro k x hx hk
    have nds := nd_ser hs (by rw [Dict.NodupKeys, plain_keys]; decide)
    rw [get?_merge nds o.nd] at hx
    cases hb : Dict.get? prop k with
    | some x' =>
      simp only [hb, Option.some_or, Option.some.injEq] at hx
      exact hx ▸ o.arg k x' hb hk
    | none =>
      simp only [hb, Option.none_or] at hx
      obtain ⟨x', h1, h2⟩ := ser_get hs hx
      exact absurd hk (dev_disjoint k (get?_plain_inv T h1).1)
  sub := by
    intro k d hd hk e he hf
    have nds := nd_ser hs (by rw [Dict.NodupKeys, plain_keys]; decide)
    rw [get?_merge nds o.nd] at hd
    cases hb : Dict.get? prop k with
    | some x' =>
      simp only [hb, Option.some_or, Option.some.injEq] at hd
      exact absurd hf (o.sub k d (hd ▸ hb) e he).2
    | none =>
      simp only [hb, Option.none_or] at hd
      obtain ⟨x, h1, h2⟩ := ser_get hs hd
      obtain ⟨c, a, rfl, ha⟩ := ser_dict h2
      obtain ⟨hk', hx⟩ := get?_plain_inv T h1
      have hks : k = "sector_params" := by
        simp only [devNames, List.mem_cons, List.not_mem_nil, or_false] at hk'
        rcases hk' with rfl | rfl | rfl | rfl | rfl
        · obtain ⟨q, hq⟩ := D.sku
          rw [hq] at hx
          cases hx
        · rfl
        · obtain ⟨q, hq⟩ := D.capex
          rw [hq] at hx
          cases hx
        · obtain ⟨q, hq⟩ := D.nodes
          rw [hq] at hx
          cases hx
        · have := D.type
          rw [← hx] at this
          cases this
      rw [hks, D.sector, PyVal.obj.injEq] at hx
      rw [hx.2] at ha
      have F := D.val.flat low
      have hek : e.1 ∈ d.map Prod.fst := List.mem_map_of_mem he
      have hek' : e.1 ∈ sectorNames := by
        have := ser_keys ha
        rw [sector_keys] at this
        exact this ▸ hek
      have hfold : env.fold e.1 = e.1 := low_of low (l := sectorNames) (by decide +kernel) _ hek'
      rw [hfold] at hf ⊢
      have hg : Dict.get? d e.1 = some e.2 := (Dict.mem_iff_get? (nd_ser ha F.nd) _ _).mp he
      obtain ⟨x', g1, g2⟩ := ser_get ha hg
      rw [F.get _ hf, Option.some.injEq] at g1
      subst g1
      obtain ⟨p, hp, hpn⟩ := List.mem_map.mp hf
      have hS := F.kind p hp
      rw [hpn] at hS
      have hnum : (Cls.sector.params.all fun p => decide (p.kind = .num ∨ p.kind = .num? ∨ p.kind = .str?)) = true := rfl
      have hk3 := List.all_eq_true.mp hnum p hp
      simp only [decide_eq_true_eq] at hk3
      generalize sv e.1 = y at hS g2
      rcases hk3 with h | h | h <;> rw [h] at hS <;> cases hS <;>
        simp only [PyVal.ser, Except.ok.injEq] at g2 <;> exact g2.symm

theorem DeviceVal.from (low : env.Case) {n : Nat} {T sv : String → PyVal} {ant scan rates : PyVal}
    (D : DeviceVal env T sv ant scan rates) {s prop : Dict String PyVal} (o : OuterDev env sv prop)
    (hs : serAttrs (plain T devNames) = .ok s) :
    fromDictN env (n + 1) .device (mergeDict s prop) = .ok (.obj .device (plain T devNames)) := by
  have nds := nd_ser hs (by rw [Dict.NodupKeys, plain_keys]; decide)
  have O := D.outer low o hs
  have step : ∀ k x, (mergeDict s prop).get? k = some x → k ∈ devNames → (T k).ser = .ok x := by
    intro k x hx hk
    rw [get?_merge nds o.nd] at hx
    cases hb : Dict.get? prop k with
    | some x' => exact absurd hk (o.dev k ((Dict.mem_keys_iff _ _).mpr ⟨x', hb⟩))
    | none =>
      simp only [hb, Option.none_or] at hx
      obtain ⟨x', h1, h2⟩ := ser_get hs hx
      exact (get?_plain_inv T h1).2 ▸ h2
  have F : Fits env (maker env (n + 1)) .device T (mergeDict s prop) := by
    refine ⟨O.nd, O.low, ?_, ?_, ?_⟩
    · intro k x hx hk acc
      have hser := step k x hx hk
      by_cases hks : k = "sector_params"
      · subst hks
        rw [D.sector] at hser ⊢
        simp only [PyVal.ser] at hser
        cases ha : serAttrs (sectorAttrs sv ant scan rates) with
        | error e => simp [ha, Except.map] at hser
        | ok sd =>
          simp only [ha, Except.map, Except.ok.injEq] at hser
          subst hser
          unfold fromStep
          rw [if_pos (by decide)]
          simp only [enumOf, classOf, maker, D.val.from low O ha, Except.map]
          rfl
      · obtain ⟨p, hp, rfl⟩ := List.mem_map.mp hk
        refine step_simple low hp ?_ hser _ _ _
        simp only [Cls.params, pNum, pNum?, List.mem_cons, List.not_mem_nil, or_false] at hp
        rcases hp with rfl | rfl | rfl | rfl | rfl
        · obtain ⟨q, hq⟩ := D.sku
          rw [hq]
          exact .str q
        · exact absurd rfl hks
        · obtain ⟨q, hq⟩ := D.capex
          rw [hq]
          exact .num q
        · obtain ⟨q, hq⟩ := D.nodes
          rw [hq]
          exact .numSome q
        · exact D.type
    · intro k d hd hk e he hf
      rw [get?_merge nds o.nd] at hd
      cases hb : Dict.get? prop k with
      | some x' =>
        simp only [hb, Option.some_or, Option.some.injEq] at hd
        exact absurd hf (o.sub k d (hd ▸ hb) e he).1
      | none =>
        simp only [hb, Option.none_or] at hd
        obtain ⟨x, h1, h2⟩ := ser_get hs hd
        exact absurd (get?_plain_inv T h1).1 hk
    · intro k hk
      refine (keys_merge nds o.nd).mpr (.inr ?_)
      rw [ser_keys hs, plain_keys]
      exact hk
  have tab : Table .device T := by
    refine ⟨D.supp, ?_⟩
    intro p hp hn
    simp only [Cls.params, pNum, pNum?, List.mem_cons, List.not_mem_nil, or_false] at hp
    rcases hp with rfl | rfl | rfl | rfl | rfl
    · obtain ⟨q, hq⟩ := D.sku
      rw [hq] at hn
      cases hn
    · rw [D.sector] at hn
      cases hn
    · obtain ⟨q, hq⟩ := D.capex
      rw [hq] at hn
      cases hn
    · rfl
    · have := D.type
      rw [hn] at this
      cases this
  rw [F.from tab]
  simp [Cls.checks, runChecks, Cls.init, D.init, Except.bind, Except.map]

theorem nodeCount_again {typ x n : PyVal} (h : nodeCount typ x = .ok n) : nodeCount typ n = .ok n ∧ ∃ q, n = .num q := by
  cases x with
  | none =>
    simp only [nodeCount, Except.ok.injEq] at h
    subst h
    refine ⟨?_, _, rfl⟩
    cases hc : typ.isCn <;> norm_num [nodeCount, hc]
  | num m =>
    simp only [nodeCount] at h
    by_cases c1 : m < 1
    · rw [if_pos c1] at h
      cases h
    · rw [if_neg c1] at h
      by_cases c2 : m ≠ 1 ∧ typ.isCn = true
      · rw [if_pos c2] at h
        cases h
      · rw [if_neg c2, Except.ok.injEq] at h
        subst h
        refine ⟨?_, m, rfl⟩
        simp only [nodeCount]
        rw [if_neg c1, if_neg c2]
  | _ => cases h

/-- The table of the attributes of a device. -/
def devTable (v : String → PyVal) (n : PyVal) : String → PyVal := Function.update v "number_of_nodes_per_site" n

theorem initDevice_iff {v : String → PyVal} {a : Dict String PyVal} (h : initDevice v = .ok a) :
    ∃ sku sa n r k m, v "device_sku" = .str sku ∧ v "sector_params" = .obj .sector sa ∧ sku ≠ "" ∧
      (∃ c, v "node_capex" = .num c ∧ ¬ c < 0) ∧
      nodeCount (v "device_type") (v "number_of_nodes_per_site") = .ok (.num n) ∧
      Dict.get? sa "horizontal_scan_range" = some (.num r) ∧ Dict.get? sa "number_sectors_per_node" = some (.num k) ∧
      n = m ∧ r * k * m ≤ 360 ∧ a = plain (devTable v (.num n)) devNames := by
  unfold initDevice at h
  cases h1 : v "device_sku" with
  | str sku =>
    cases h2 : v "sector_params" with
    | obj c sa =>
      cases c with
      | sector =>
        simp only [h1, h2] at h
        by_cases c1 : sku = ""
        · rw [if_pos c1] at h
          cases h
        · rw [if_neg c1] at h
          cases h3 : v "node_capex" with
          | num q =>
            simp only [h3, PyVal.toNum, Except.bind] at h
            by_cases c2 : q < 0
            · rw [if_pos c2] at h
              cases h
            · rw [if_neg c2] at h
              cases h4 : nodeCount (v "device_type") (v "number_of_nodes_per_site") with
              | error e => simp [h4] at h
              | ok n =>
                simp only [h4] at h
                split at h
                · rename_i r k m hr hk
                  by_cases c3 : r * k * m ≤ 360
                  · rw [if_pos c3, Except.ok.injEq] at h
                    refine ⟨sku, sa, m, r, k, m, rfl, rfl, c1, ⟨q, rfl, c2⟩, rfl, hr, hk, rfl, c3, ?_⟩
                    rw [← h]
                    simp [plain, devNames, devTable, Function.update_apply, h1, h2, h3]
                  · rw [if_neg c3] at h
                    cases h
                · cases h
          | _ => simp [h3, PyVal.toNum, Except.bind] at h
      | _ => simp [h1, h2] at h
    | _ => simp [h1, h2] at h
  | _ => simp [h1] at h

theorem initDevice_mk {T : String → PyVal} {sku : String} {sa : List (String × PyVal)} {n r k c : ℚ}
    (h1 : T "device_sku" = .str sku) (h2 : T "sector_params" = .obj .sector sa) (h3 : sku ≠ "")
    (h4 : T "node_capex" = .num c) (h5 : ¬ c < 0) (h6 : T "number_of_nodes_per_site" = .num n)
    (h7 : nodeCount (T "device_type") (.num n) = .ok (.num n))
    (h8 : Dict.get? sa "horizontal_scan_range" = some (.num r)) (h9 : Dict.get? sa "number_sectors_per_node" = some (.num k))
    (h10 : r * k * n ≤ 360) : initDevice T = .ok (plain T devNames) := by
  unfold initDevice
  simp only [h1, h2, h4, h6, h7, h8, h9, PyVal.toNum, Except.bind]
  rw [if_neg h3, if_neg h5, if_pos h10]
  simp [plain, devNames, h1, h2, h4, h6]

theorem device_of {o : PyVal} (h : HasKind env (.obj .device) o) : ∃ T sv ant scan rates,
    o = .obj .device (plain T devNames) ∧ DeviceVal env T sv ant scan rates := by
  obtain ⟨v, a, rfl, h1, h2, -, h4⟩ := made h
  simp only [Cls.init] at h4
  obtain ⟨sku, sa, n, r, k, m, e1, e2, e3, ⟨c, e4, e5⟩, e6, e7, e8, rfl, e9, rfl⟩ := initDevice_iff h4
  have hs := h2 ⟨"sector_params", .obj .sector, none⟩ (by simp [Cls.params])
  simp only [e2] at hs
  obtain ⟨sv, ant, scan, rates, hsa, S⟩ := sector_of hs
  have ht := h2 ⟨"device_type", .enum .device, some (.enum .device "DN")⟩ (by simp [Cls.params])
  simp only [PyVal.obj.injEq, true_and] at hsa
  have u1 : devTable v (.num n) "device_sku" = .str sku := by simp [devTable, e1]
  have u2 : devTable v (.num n) "sector_params" = .obj .sector sa := by simp [devTable, e2]
  have u4 : devTable v (.num n) "node_capex" = .num c := by simp [devTable, e4]
  have u6 : devTable v (.num n) "number_of_nodes_per_site" = .num n := by simp [devTable]
  have u7 : devTable v (.num n) "device_type" = v "device_type" := by simp [devTable]
  refine ⟨devTable v (.num n), sv, ant, scan, rates, rfl, ?_⟩
  refine ⟨?_, by rw [u2, hsa], S, ⟨sku, u1⟩, ⟨c, u4⟩, ⟨n, u6⟩, ?_, ?_⟩
  · intro j hj
    have : j ≠ "number_of_nodes_per_site" := fun h => hj (h ▸ by decide)
    simp only [devTable, Function.update_of_ne this]
    exact h1 j hj
  · rw [u7]
    exact HasKind.simple ht rfl (by decide)
  · exact initDevice_mk u1 u2 e3 u4 e5 u6 (by rw [u7]; exact (nodeCount_again e6).1) e7 e8 e9

/-! ## Lists of devices -/

/-- The parameters of a sector after the outer object has handed down its own. -/
def radioOver (sv w : String → PyVal) : String → PyVal := fun n => if radioNames.contains n then w n else sv n

theorem populate_sector (sv w : String → PyVal) (ant scan rates : PyVal) :
    radioNames.foldl (fun (a : Dict String PyVal) n => a.set n (w n)) (sectorAttrs sv ant scan rates) =
      sectorAttrs (radioOver sv w) ant scan rates := rfl

theorem runChecks_iff {v : String → PyVal} {cs : List Check} :
    runChecks v cs = .ok () ↔ ∀ c ∈ cs, c.test (c.names.map v) = .ok () := by
  induction cs with
  | nil => simp [runChecks]
  | cons c cs ih =>
    simp only [runChecks, List.mem_cons, forall_eq_or_imp]
    cases h : c.test (c.names.map v) with
    | error e => simp [Except.bind]
    | ok u => simp [Except.bind, ih]

/-- The numbers handed down are such as a sector accepts. -/
structure RadioVals (w : String → PyVal) : Prop where
  carrier : ∃ q, w "carrier_frequency" = .num q ∧ 0 < q
  thermal : ∃ q, w "thermal_noise_power" = .num q
  noise : ∃ q, w "noise_figure" = .num q ∧ 0 ≤ q
  rain : ∃ q, w "rain_rate" = .num q ∧ 0 ≤ q
  avail : ∃ q, w "link_availability_percentage" = .num q ∧ 0 ≤ q ∧ q ≤ 100

theorem SectorVal.radio {sv w : String → PyVal} {ant scan rates : PyVal} (S : SectorVal env sv ant scan rates)
    (R : RadioVals w) : SectorVal env (radioOver sv w) ant scan rates := by
  obtain ⟨c1, hc1, hc1'⟩ := R.carrier
  obtain ⟨c2, hc2⟩ := R.thermal
  obtain ⟨c3, hc3, hc3'⟩ := R.noise
  obtain ⟨c4, hc4, hc4'⟩ := R.rain
  obtain ⟨c5, hc5, hc5', hc5''⟩ := R.avail
  have keep : ∀ n, radioNames.contains n = false → radioOver sv w n = sv n := by
    intro n hn
    simp only [radioOver, hn]
    rfl
  refine ⟨?_, ?_, ?_, ?_, ?_, ?_⟩
  · intro n hn
    have : radioNames.contains n = false := by
      cases h : radioNames.contains n with
      | false => rfl
      | true =>
        have hs : ∀ m ∈ radioNames, m ∈ Cls.sector.args := by decide
        exact absurd (hs n (by simpa using h)) hn
    rw [keep n this]
    exact S.supp n hn
  · intro p hp
    by_cases h : radioNames.contains p.name = true
    · have hk : (Cls.sector.params.all fun p => !radioNames.contains p.name || decide (p.kind = .num)) = true := rfl
      have := List.all_eq_true.mp hk p hp
      simp only [h, Bool.not_true, Bool.false_or, decide_eq_true_eq] at this
      rw [this]
      simp only [radioOver, if_pos h]
      have hm : p.name ∈ radioNames := by simpa using h
      simp only [radioNames, List.mem_cons, List.not_mem_nil, or_false] at hm
      rcases hm with h | h | h | h | h <;> rw [h]
      · rw [hc1]
        exact .num _
      · rw [hc2]
        exact .num _
      · rw [hc3]
        exact .num _
      · rw [hc4]
        exact .num _
      · rw [hc5]
        exact .num _
    · rw [keep p.name (by simpa using h)]
      exact S.kind p hp
  · rw [runChecks_iff]
    intro ch hch
    have old := runChecks_iff.mp S.check ch hch
    by_cases h : (ch.names.any fun n => radioNames.contains n) = true
    · have hcases : ch = one "carrier_frequency" (0 < ·) ∨ ch = one "noise_figure" (0 ≤ ·) ∨ ch = one "rain_rate" (0 ≤ ·) ∨
          ch = one "link_availability_percentage" (fun q => 0 ≤ q ∧ q ≤ 100) := by
        simp only [Cls.checks, List.mem_cons, List.not_mem_nil, or_false] at hch
        rcases hch with rfl | rfl | rfl | rfl | rfl | rfl | rfl | rfl | rfl | rfl | rfl | rfl | rfl | rfl
        all_goals first
          | exact .inl rfl
          | exact .inr (.inl rfl)
          | exact .inr (.inr (.inl rfl))
          | exact .inr (.inr (.inr rfl))
          | (exfalso; revert h; simp only [one, optional, optional2]; decide)
      rcases hcases with rfl | rfl | rfl | rfl
      · simp [one, radioOver, radioNames, hc1, PyVal.toNum, Except.bind, need, hc1']
      · simp [one, radioOver, radioNames, hc3, PyVal.toNum, Except.bind, need, hc3']
      · simp [one, radioOver, radioNames, hc4, PyVal.toNum, Except.bind, need, hc4']
      · simp [one, radioOver, radioNames, hc5, PyVal.toNum, Except.bind, need, hc5', hc5'']
    · have : ch.names.map (radioOver sv w) = ch.names.map sv := by
        refine List.map_congr_left fun n hn => keep n ?_
        cases hr : radioNames.contains n with
        | false => rfl
        | true => exact absurd (List.any_eq_true.mpr ⟨n, hn, hr⟩) h
      rw [this]
      exact old
  · exact S.ant
  · exact S.scan
  · exact S.rates

theorem set_plain (T : String → PyVal) {l : List String} (nd : l.Nodup) {k : String} (h : k ∈ l) (x : PyVal) :
    (plain T l).set k x = plain (Function.update T k x) l := by
  induction l with
  | nil => simp at h
  | cons m l ih =>
    obtain ⟨n1, n2⟩ := List.nodup_cons.mp nd
    by_cases c : m = k
    · subst c
      have : ∀ j ∈ l, Function.update T m x j = T j := fun j hj =>
        Function.update_of_ne (fun (h : j = m) => n1 (h ▸ hj)) _ _
      simp only [plain, List.map_cons, Dict.set, if_true, Function.update_self, List.cons.injEq, true_and]
      exact List.map_congr_left fun j hj => by rw [this j hj]
    · have hk : k ∈ l := (List.mem_cons.mp h).resolve_left fun hn => c hn.symm
      have := ih n2 hk
      simp only [plain, List.map_cons, Dict.set, if_neg c, Function.update_of_ne c, List.cons.injEq, true_and] at this ⊢
      exact this

/-- A device after the outer object has handed down its parameters. -/
theorem DeviceVal.populate {T sv w : String → PyVal} {ant scan rates : PyVal} (D : DeviceVal env T sv ant scan rates)
    (R : RadioVals w) : ∃ T', populateDevice w (plain T devNames) = .ok (plain T' devNames) ∧
      DeviceVal env T' (radioOver sv w) ant scan rates ∧ T' "device_sku" = T "device_sku" := by
  let T' := Function.update T "sector_params" (.obj .sector (sectorAttrs (radioOver sv w) ant scan rates))
  have u1 : T' "device_sku" = T "device_sku" := by simp [T']
  have u2 : T' "sector_params" = .obj .sector (sectorAttrs (radioOver sv w) ant scan rates) := by simp [T']
  have u3 : T' "node_capex" = T "node_capex" := by simp [T']
  have u4 : T' "number_of_nodes_per_site" = T "number_of_nodes_per_site" := by simp [T']
  have u5 : T' "device_type" = T "device_type" := by simp [T']
  refine ⟨T', ?_, ?_, u1⟩
  · have hg : (plain T devNames).get? "sector_params" = some (.obj .sector (sectorAttrs sv ant scan rates)) := by
      rw [get?_plain T (by decide), D.sector]
    simp only [populateDevice, hg, populate_sector]
    rw [set_plain T (by decide) (by decide)]
  · refine ⟨?_, u2, D.val.radio R, u1 ▸ D.sku, u3 ▸ D.capex, u4 ▸ D.nodes, u5 ▸ D.type, ?_⟩
    · intro j hj
      have : j ≠ "sector_params" := fun h => hj (h ▸ by decide)
      simp only [T', Function.update_of_ne this]
      exact D.supp j hj
    · obtain ⟨sku, sa, n, r, k, m, e1, e2, e3, ⟨c, e4, e5⟩, e6, e7, e8, rfl, e9, e10⟩ := initDevice_iff D.init
      obtain ⟨q, hq⟩ := D.nodes
      rw [hq] at e6
      have hqn : q = n := by
        simp only [nodeCount] at e6
        split at e6
        · cases e6
        · split at e6
          · cases e6
          · simpa using e6
      subst hqn
      rw [D.sector, PyVal.obj.injEq] at e2
      rw [← e2.2] at e7 e8
      refine initDevice_mk (u1.trans e1) u2 e3 (u3.trans e4) e5 (u4.trans hq) (by rw [u5]; exact e6) ?_ ?_ e9
      · exact e7
      · exact e8

/-- A device that already has the parameters of the outer object. -/
structure Settled (env : CfgEnv) (w : String → PyVal) (d : Dict String PyVal) : Prop where
  ex : ∃ T sv ant scan rates, d = plain T devNames ∧ DeviceVal env T sv ant scan rates ∧ ∀ n ∈ radioNames, sv n = w n

theorem radioOver_self {sv w : String → PyVal} (h : ∀ n ∈ radioNames, sv n = w n) : radioOver sv w = sv := by
  funext n
  unfold radioOver
  split
  · rename_i hn
    exact (h n (by simpa using hn)).symm
  · rfl

theorem Settled.again {w : String → PyVal} {d : Dict String PyVal} (h : Settled env w d) : populateDevice w d = .ok d := by
  obtain ⟨T, sv, ant, scan, rates, rfl, D, hw⟩ := h.ex
  have hg : (plain T devNames).get? "sector_params" = some (.obj .sector (sectorAttrs sv ant scan rates)) := by
    rw [get?_plain T (by decide), D.sector]
  simp only [populateDevice, hg, populate_sector, radioOver_self hw, set_self hg]

theorem populate_all {w : String → PyVal} (R : RadioVals w) (xs : List PyVal)
    (hx : ∀ x ∈ xs, HasKind env (.obj .device) x) {ds : List (Dict String PyVal)} (hd : deviceAttrs xs = .ok ds) :
    ∃ ds', populateAll w ds = .ok ds' ∧ (∀ d ∈ ds', Settled env w d) ∧
      ds'.map (fun d => d.get? "device_sku") = ds.map (fun d => d.get? "device_sku") := by
  induction xs generalizing ds with
  | nil =>
    simp only [deviceAttrs, Except.ok.injEq] at hd
    subst hd
    exact ⟨[], rfl, by simp, rfl⟩
  | cons x xs ih =>
    obtain ⟨T, sv, ant, scan, rates, rfl, D⟩ := device_of (hx x List.mem_cons_self)
    simp only [deviceAttrs] at hd
    cases hr : deviceAttrs xs with
    | error e => simp [hr, Except.map] at hd
    | ok rest =>
      simp only [hr, Except.map, Except.ok.injEq] at hd
      subst hd
      obtain ⟨ds', h1, h2, h3⟩ := ih (fun y hy => hx y (List.mem_cons_of_mem _ hy)) hr
      obtain ⟨T', p1, p2, p3⟩ := D.populate R
      refine ⟨plain T' devNames :: ds', ?_, ?_, ?_⟩
      · simp [populateAll, p1, h1, Except.bind, Except.map]
      · intro d hd
        rcases List.mem_cons.mp hd with rfl | hd
        · refine ⟨T', _, ant, scan, rates, rfl, p2, fun n hn => ?_⟩
          have : radioNames.contains n = true := by simpa using hn
          simp only [radioOver, if_pos this]
        · exact h2 d hd
      · simp only [List.map_cons, h3, List.cons.injEq, and_true]
        rw [get?_plain T' (by decide), get?_plain T (by decide), p3]

theorem populate_settled {w : String → PyVal} {ds : List (Dict String PyVal)} (h : ∀ d ∈ ds, Settled env w d) :
    populateAll w ds = .ok ds := by
  induction ds with
  | nil => rfl
  | cons d ds ih =>
    simp [populateAll, (h d List.mem_cons_self).again, ih (fun e he => h e (List.mem_cons_of_mem _ he)), Except.bind,
      Except.map]

theorem deviceAttrs_objs (ds : List (Dict String PyVal)) : deviceAttrs (ds.map (PyVal.obj .device)) = .ok ds := by
  induction ds with
  | nil => rfl
  | cons d ds ih => simp [deviceAttrs, ih, Except.map]

theorem checkSkus_congr {ds ds' : List (Dict String PyVal)}
    (h : ds'.map (fun d => d.get? "device_sku") = ds.map (fun d => d.get? "device_sku")) (seen : List String) :
    checkSkus env seen ds' = checkSkus env seen ds := by
  induction ds generalizing ds' seen with
  | nil =>
    have : ds' = [] := by simpa using h
    rw [this]
  | cons d ds ih =>
    cases ds' with
    | nil => simp at h
    | cons d' ds' =>
      simp only [List.map_cons, List.cons.injEq] at h
      simp only [checkSkus, h.1]
      split
      · split
        · rfl
        · exact ih h.2 _
      · rfl

theorem deviceAttrs_length {xs : List PyVal} {ds : List (Dict String PyVal)} (h : deviceAttrs xs = .ok ds) :
    xs.isEmpty = ds.isEmpty := by
  cases xs with
  | nil =>
    simp only [deviceAttrs, Except.ok.injEq] at h
    subst h
    rfl
  | cons x xs =>
    cases x with
    | obj c a =>
      cases c with
      | device =>
        simp only [deviceAttrs] at h
        cases hr : deviceAttrs xs with
        | error e => simp [hr, Except.map] at h
        | ok rest =>
          simp only [hr, Except.map, Except.ok.injEq] at h
          subst h
          rfl
      | _ => cases h
    | _ => cases h

/-- The list that an outer object keeps is accepted again and stays the same. -/
theorem accept_again {v : String → PyVal} (R : RadioVals v) (hk : HasKind env .devices (v "device_list")) {y : PyVal}
    (h : acceptList env v = .ok y) : ∃ ds : List (Dict String PyVal), y = .list (ds.map (PyVal.obj .device)) ∧ (∀ d ∈ ds, Settled env v d) ∧
      acceptList env (Function.update v "device_list" y) = .ok y := by
  generalize hl : v "device_list" = l at hk
  cases hk with
  | devices xs hx =>
    simp only [acceptList, hl] at h
    by_cases c : xs.isEmpty = true
    · rw [if_pos c] at h
      cases h
    · rw [if_neg c] at h
      cases h1 : deviceAttrs xs with
      | error e => simp [h1, Except.bind] at h
      | ok ds =>
        cases h2 : checkSkus env [] ds with
        | error e => simp [h1, h2, Except.bind] at h
        | ok u =>
          obtain ⟨ds', p1, p2, p3⟩ := populate_all R xs hx h1
          simp only [h1, h2, p1, Except.bind, Except.map, Except.ok.injEq] at h
          subst h
          refine ⟨ds', rfl, p2, ?_⟩
          have hlen : (ds'.map (PyVal.obj .device)).isEmpty = false := by
            have := congrArg List.length p3
            simp only [List.length_map] at this
            have e1 := deviceAttrs_length h1
            cases ds' with
            | nil =>
              exfalso
              have : ds = [] := List.length_eq_zero_iff.mp (by simpa using this.symm)
              rw [this] at e1
              exact c (by simpa using e1)
            | cons => rfl
          have hv : populateAll (Function.update v "device_list" (.list (ds'.map (PyVal.obj .device)))) ds' = .ok ds' := by
            refine populate_settled (env := env) fun d hd => ?_
            obtain ⟨T, sv, ant, scan, rates, e, D, hw⟩ := (p2 d hd).ex
            refine ⟨T, sv, ant, scan, rates, e, D, fun n hn => ?_⟩
            have : n ≠ "device_list" := fun h => by
              rw [h] at hn
              revert hn
              decide
            rw [Function.update_of_ne this]
            exact hw n hn
          simp only [acceptList, Function.update_self]
          rw [if_neg (by rw [hlen]; simp), deviceAttrs_objs]
          simp only [Except.bind, checkSkus_congr p3, h2, hv, Except.map]

/-! ## Objects with devices -/

/-- `LOSParams` and `OptimizerParams` with their attributes. -/
structure Top (env : CfgEnv) (c : Cls) (T : String → PyVal) (a : Dict String PyVal) : Prop where
  cls : c = .los ∨ c = .opt
  nd : a.NodupKeys
  low : ∀ k ∈ a.keys, env.fold k = k
  get : ∀ n ∈ c.args, a.get? n = some (T n)
  kind : ∀ p ∈ c.params, p.name ≠ "device_list" → p.name ≠ "site_detection" → Simple p.kind (T p.name)
  extra : ∀ k c' b, k ∉ c.args → a.get? k ≠ some (.obj c' b)
  keys : ∀ k ∈ a.keys, k ∉ devNames ∧ k ∉ detNames ∧ (k ∈ Cls.sector.args → k ∈ radioNames)
  devs : ∃ ds : List (Dict String PyVal), T "device_list" = .list (ds.map (PyVal.obj .device)) ∧
    ∀ d ∈ ds, Settled env T d
  det : "site_detection" ∈ c.args → ∃ v, T "site_detection" = .obj .detection (plain v detNames) ∧
    (∀ n, n ∉ Cls.detection.args → v n = .none) ∧ (∀ p ∈ Cls.detection.params, Simple p.kind (v p.name)) ∧
    runChecks v (Cls.detection.checks env) = .ok ()

variable {c : Cls} {T : String → PyVal} {a s : Dict String PyVal}

theorem simple_not_obj {k : Kind} {c : Cls} {b : List (String × PyVal)} (h : Simple k (.obj c b)) : False := by
  cases h

theorem Top.dict (t : Top env c T a) (hs : serAttrs a = .ok s) {k : String} {d : List (String × PyVal)}
    (hd : s.get? k = some (.dict d)) : k = "site_detection" ∧ ∃ v, T "site_detection" = .obj .detection (plain v detNames) ∧
      (∀ p ∈ Cls.detection.params, Simple p.kind (v p.name)) ∧ serAttrs (plain v detNames) = .ok d := by
  obtain ⟨x, h1, h2⟩ := ser_get hs hd
  obtain ⟨c', b, rfl, hb⟩ := ser_dict h2
  by_cases hk : k ∈ c.args
  · have hT := t.get k hk
    rw [h1, Option.some.injEq] at hT
    by_cases k1 : k = "device_list"
    · obtain ⟨ds, hds, -⟩ := t.devs
      rw [k1, hds] at hT
      cases hT
    · by_cases k2 : k = "site_detection"
      · subst k2
        obtain ⟨v, hv, -, hk3, -⟩ := t.det hk
        rw [hv, PyVal.obj.injEq] at hT
        exact ⟨rfl, v, hv, hk3, hT.2 ▸ hb⟩
      · obtain ⟨p, hp, rfl⟩ := List.mem_map.mp hk
        exact (simple_not_obj (hT ▸ t.kind p hp k1 k2)).elim
  · exact absurd h1 (t.extra k c' b hk)

theorem det_keys {v : String → PyVal} {d : Dict String PyVal} (hd : serAttrs (plain v detNames) = .ok d) {e : String × PyVal}
    (he : e ∈ d) : e.1 ∈ detNames := by
  have h : e.1 ∈ d.keys := List.mem_map_of_mem he
  rwa [ser_keys hd, plain_keys] at h

theorem det_low (low : env.Case) {n : String} (h : n ∈ detNames) : env.fold n = n :=
  low_of low (l := detNames) (by decide +kernel) n h

theorem radio_args (h : c = .los ∨ c = .opt) : ∀ n ∈ radioNames, n ∈ c.args := by
  rcases h with rfl | rfl <;> decide

theorem Top.outerDev (low : env.Case) (t : Top env c T a) (hs : serAttrs a = .ok s) {sv : String → PyVal}
    (hw : ∀ n ∈ radioNames, sv n = T n) : OuterDev env sv s where
  nd := nd_ser hs t.nd
  low := fun k hk => t.low k (ser_keys hs ▸ hk)
  dev := fun k hk => (t.keys k (ser_keys hs ▸ hk)).1
  arg := by
    intro k x hx hk
    obtain ⟨x', h1, h2⟩ := ser_get hs hx
    have hr := (t.keys k ((Dict.mem_keys_iff _ _).mpr ⟨x', h1⟩)).2.2 hk
    rw [t.get k (radio_args t.cls k hr), Option.some.injEq] at h1
    rw [hw k hr, h1]
    exact h2
  sub := by
    intro k d hd e he
    obtain ⟨-, v, -, -, hv⟩ := t.dict hs hd
    have hm := det_keys hv he
    rw [det_low low hm]
    have : ∀ n ∈ detNames, n ∉ devNames ∧ n ∉ Cls.sector.args := by decide
    exact this _ hm

theorem Top.outerDet (low : env.Case) (t : Top env c T a) (hs : serAttrs a = .ok s) {v : String → PyVal}
    (hv : T "site_detection" = .obj .detection (plain v detNames)) : Outer env .detection v s where
  nd := nd_ser hs t.nd
  low := fun k hk => t.low k (ser_keys hs ▸ hk)
  arg := by
    intro k x hx hk
    have h1 : k ∈ a.keys := ser_keys hs ▸ (Dict.mem_keys_iff _ _).mpr ⟨x, hx⟩
    exact absurd hk (t.keys k h1).2.1
  sub := by
    intro k d hd hk e he hf
    obtain ⟨-, v', hv', hkind, hser⟩ := t.dict hs hd
    rw [hv, PyVal.obj.injEq] at hv'
    rw [← hv'.2] at hser
    have hm := det_keys hser he
    rw [det_low low hm]
    have nd : Dict.NodupKeys d := nd_ser hser (by rw [Dict.NodupKeys, plain_keys]; decide)
    have hg : Dict.get? d e.1 = some e.2 := (Dict.mem_iff_get? nd _ _).mp he
    obtain ⟨x', g1, g2⟩ := ser_get hser hg
    have hx := (get?_plain_inv v g1).2
    have hveq : v e.1 = v' e.1 := by
      have h3 := get?_plain v' hm
      rw [← hv'.2, get?_plain v hm, Option.some.injEq] at h3
      exact h3
    obtain ⟨p, hp, hpn⟩ := List.mem_map.mp (show e.1 ∈ Cls.detection.args from hm)
    have hS := hkind p hp
    rw [hpn, ← hveq, ← hx] at hS
    have hnum : (Cls.detection.params.all fun p => decide (p.kind = .num ∨ p.kind = .num?)) = true := rfl
    have hk3 := List.all_eq_true.mp hnum p hp
    simp only [decide_eq_true_eq] at hk3
    rw [← hx]
    rcases hk3 with h | h <;> rw [h] at hS <;> cases hS <;>
      simp only [PyVal.ser, Except.ok.injEq] at g2 <;> exact g2.symm

theorem conv_devices {make : Cls → Dict String PyVal → Except Err PyVal} {prop : Dict String PyVal}
    {ds : List (Dict String PyVal)} {ys : List PyVal} (hs : serItems (ds.map (PyVal.obj .device)) = .ok ys)
    (h : ∀ d ∈ ds, ∀ sd, serAttrs d = .ok sd → make .device (mergeDict sd prop) = .ok (.obj .device d)) :
    convItems make "device_list" prop ys = .ok (ds.map (PyVal.obj .device)) := by
  induction ds generalizing ys with
  | nil =>
    simp only [List.map_nil, serItems, Except.ok.injEq] at hs
    subst hs
    rfl
  | cons d ds ih =>
    simp only [List.map_cons, serItems] at hs
    cases h1 : serAttrs d with
    | error e => simp [h1, Except.bind] at hs
    | ok sd =>
      cases h2 : serItems (ds.map (PyVal.obj .device)) with
      | error e => simp [h1, h2, Except.bind, Except.map] at hs
      | ok ys' =>
        simp only [h1, h2, Except.bind, Except.map, Except.ok.injEq] at hs
        subst hs
        simp [convItems, classOf, h d List.mem_cons_self sd h1,
          ih h2 (fun e he => h e (List.mem_cons_of_mem _ he)), Except.bind, Except.map]

theorem Top.fits (low : env.Case) (t : Top env c T a) (hs : serAttrs a = .ok s) :
    Fits env (maker env 2) c T s where
  nd := nd_ser hs t.nd
  low := fun k hk => t.low k (ser_keys hs ▸ hk)
  arg := by
    intro k x hx hk acc
    obtain ⟨x', h1, hser⟩ := ser_get hs hx
    rw [t.get k hk, Option.some.injEq] at h1
    subst h1
    have ha : c.args.contains k = true := by simpa using hk
    by_cases k1 : k = "device_list"
    · subst k1
      obtain ⟨ds, hds, hset⟩ := t.devs
      rw [hds] at hser ⊢
      simp only [PyVal.ser] at hser
      cases hi : serItems (ds.map (PyVal.obj .device)) with
      | error e => simp [hi, Except.map] at hser
      | ok ys =>
        simp only [hi, Except.map, Except.ok.injEq] at hser
        subst hser
        have hc : convItems (maker env 2) "device_list" s ys = .ok (ds.map (PyVal.obj .device)) := by
          refine conv_devices hi fun d hd sd hsd => ?_
          obtain ⟨T', sv, ant, scan, rates, rfl, D, hw⟩ := (hset d hd).ex
          exact D.from low (n := 0) (t.outerDev low hs hw) hsd
        unfold fromStep
        rw [if_pos ha]
        simp only [enumOf, hc, Except.map]
        rfl
    · by_cases k2 : k = "site_detection"
      · subst k2
        obtain ⟨v, hv, hsupp, hkind, hcheck⟩ := t.det hk
        rw [hv] at hser ⊢
        simp only [PyVal.ser] at hser
        cases hi : serAttrs (plain v detNames) with
        | error e => simp [hi, Except.map] at hser
        | ok sd =>
          simp only [hi, Except.map, Except.ok.injEq] at hser
          subst hser
          have hc : maker env 2 .detection (mergeDict sd s) = .ok (.obj .detection (plain v detNames)) := by
            show fromDictN env 1 .detection (mergeDict sd s) = _
            rw [Flat.from low (table_simple (by decide) hsupp hkind) (detection_flat low hkind) (t.outerDet low hs hv) hi,
              hcheck]
            rfl
          unfold fromStep
          rw [if_pos ha]
          simp only [enumOf, classOf, hc, Except.map]
          rfl
      · obtain ⟨p, hp, rfl⟩ := List.mem_map.mp hk
        exact step_simple low hp (t.kind p hp k1 k2) hser _ _ _
  sub := by
    intro k d hd hk e he hf
    obtain ⟨-, v, -, -, hv⟩ := t.dict hs hd
    have hm := det_keys hv he
    rw [det_low low hm] at hf
    have : ∀ n ∈ detNames, n ∉ c.args := by
      rcases t.cls with rfl | rfl <;> decide
    exact absurd hf (this _ hm)
  all := by
    intro k hk
    rw [ser_keys hs, Dict.mem_keys_iff]
    exact ⟨_, t.get k hk⟩

theorem get?_append {a b : Dict String PyVal} {n : String} {x : PyVal} (h : a.get? n = some x) :
    Dict.get? (a ++ b) n = some x := by
  induction a with
  | nil => simp at h
  | cons e a ih =>
    obtain ⟨k, y⟩ := e
    simp only [List.cons_append, Dict.get?_cons] at h ⊢
    by_cases c : k = n
    · rw [if_pos c] at h ⊢
      exact h
    · rw [if_neg c] at h ⊢
      exact ih h

theorem radio_vals (hc : c = .los ∨ c = .opt) {v : String → PyVal} (hk : ∀ p ∈ c.params, HasKind env p.kind (v p.name))
    (ha : ∀ n ∈ radioNames, a.get? n = some (v n)) (R : RadioOk (.obj c a)) : RadioVals v := by
  have hnum : ∀ n ∈ radioNames, ∃ q, v n = .num q := by
    intro n hn
    have : (radioNames.all fun n => c.params.any fun p => decide (p.name = n) && decide (p.kind = .num)) = true := by
      rcases hc with rfl | rfl <;> rfl
    obtain ⟨p, hp, h⟩ := List.any_eq_true.mp (List.all_eq_true.mp this n hn)
    simp only [Bool.and_eq_true, decide_eq_true_eq] at h
    have := hk p hp
    rw [h.1, h.2] at this
    generalize v n = x at this
    cases this
    exact ⟨_, rfl⟩
  have hat : ∀ n ∈ radioNames, (PyVal.obj c a).attr n = some (v n) := ha
  obtain ⟨q1, h1⟩ := hnum "carrier_frequency" (by decide)
  obtain ⟨q2, h2⟩ := hnum "thermal_noise_power" (by decide)
  obtain ⟨q3, h3⟩ := hnum "noise_figure" (by decide)
  obtain ⟨q4, h4⟩ := hnum "rain_rate" (by decide)
  obtain ⟨q5, h5⟩ := hnum "link_availability_percentage" (by decide)
  exact ⟨⟨q1, h1, R.carrier q1 (h1 ▸ hat _ (by decide))⟩, ⟨q2, h2⟩, ⟨q3, h3, R.noise q3 (h3 ▸ hat _ (by decide))⟩,
    ⟨q4, h4, R.rain q4 (h4 ▸ hat _ (by decide))⟩, ⟨q5, h5, R.avail q5 (h5 ▸ hat _ (by decide))⟩⟩

/-- Attributes in the order of assignment. -/
def topNames : Cls → List String
  | .los => "device_list" :: losNames
  | _ => ["pop_site_capex", "cn_site_capex", "dn_site_capex"] ++ "device_list" :: optNames

/-- Attributes that are not parameters. -/
def topExtra : Cls → Dict String PyVal
  | .los => []
  | _ => [("coverage_percentage", .num 1), ("ignore_polarities", .num 0)]

theorem plain_update (v : String → PyVal) {l : List String} {k : String} (h : k ∉ l) (y : PyVal) :
    plain (Function.update v k y) l = plain v l :=
  List.map_congr_left fun n hn => by
    have : n ≠ k := fun e => h (e ▸ hn)
    rw [Function.update_of_ne this]

theorem top_init (hc : c = .los ∨ c = .opt) {v : String → PyVal} {y : PyVal} (h : acceptList env v = .ok y) :
    c.init env v = .ok (plain (Function.update v "device_list" y) (topNames c) ++ topExtra c) := by
  rcases hc with rfl | rfl
  · simp only [Cls.init, h, Except.map, topNames, topExtra, List.append_nil]
    have := plain_update v (l := losNames) (k := "device_list") (by decide) y
    simp only [plain, List.map_cons, Function.update_self, List.cons_append, List.nil_append] at this ⊢
    rw [this]
  · simp only [Cls.init, h, Except.map, topNames, topExtra]
    have h1 := plain_update v (l := optNames) (k := "device_list") (by decide) y
    have h2 := plain_update v (l := ["pop_site_capex", "cn_site_capex", "dn_site_capex"]) (k := "device_list") (by decide) y
    simp only [plain, List.map_append] at h1 h2 ⊢
    rw [h2]
    simp only [List.map_cons, Function.update_self] at h1 ⊢
    rw [h1]
    simp

theorem top_of (low : env.Case) (hc : c = .los ∨ c = .opt) {o : PyVal} (h : HasKind env (.obj c) o) (R : RadioOk o) :
    ∃ (T : String → PyVal) (a : Dict String PyVal), o = .obj c a ∧ Top env c T a ∧
      (∀ k x, k ∉ c.args → a.get? k = some x → ∃ q, x = PyVal.num q) ∧
      (∀ n, n ∉ c.args → T n = .none) ∧
      (∀ p ∈ c.params, T p.name = .none → p.name ≠ "maximum_los_distance" → p.default = some .none) ∧
      runChecks T (c.checks env) = .ok () ∧ c.init env T = .ok a := by
  obtain ⟨v, a, rfl, h1, h2, h3, h4⟩ := made h
  have hy : ∃ y, acceptList env v = .ok y := by
    cases hy : acceptList env v with
    | ok y => exact ⟨y, rfl⟩
    | error e => rcases hc with rfl | rfl <;> simp [Cls.init, hy, Except.map] at h4
  obtain ⟨y, hy⟩ := hy
  have ha := top_init hc hy
  rw [h4, Except.ok.injEq] at ha
  have hargs : ∀ n ∈ c.args, n ∈ topNames c := by rcases hc with rfl | rfl <;> decide
  have hget : ∀ n ∈ c.args, a.get? n = some (Function.update v "device_list" y n) := by
    intro n hn
    rw [ha]
    exact get?_append (get?_plain _ (hargs n hn))
  have hne : ∀ n ∈ radioNames, n ≠ "device_list" := by decide
  have RV : RadioVals v := by
    refine radio_vals hc h2 (fun n hn => ?_) R
    rw [hget n (radio_args hc n hn), Function.update_of_ne (hne n hn)]
  have hdl : ⟨"device_list", .devices, none⟩ ∈ c.params := by rcases hc with rfl | rfl <;> simp [Cls.params]
  obtain ⟨ds, e1, e2, e3⟩ := accept_again RV (h2 _ hdl) hy
  have hkeys : a.keys = topNames c ++ (topExtra c).keys := by
    rw [ha]
    have : (plain (Function.update v "device_list" y) (topNames c)).keys = topNames c := plain_keys _ _
    simp only [Dict.keys, List.map_append] at this ⊢
    rw [this]
  have t : Top env c (Function.update v "device_list" y) a := by
    refine ⟨hc, ?_, ?_, hget, ?_, ?_, ?_, ?_, ?_⟩
    · unfold Dict.NodupKeys
      rw [hkeys]
      rcases hc with rfl | rfl
      · show ("device_list" :: losNames).Nodup
        decide
      · show ((["pop_site_capex", "cn_site_capex", "dn_site_capex"] ++ "device_list" :: optNames) ++
          ["coverage_percentage", "ignore_polarities"]).Nodup
        decide
    · rw [hkeys]
      refine low_of low ?_
      rcases hc with rfl | rfl
      · show (("device_list" :: losNames).all _) = true
        decide +kernel
      · show (((["pop_site_capex", "cn_site_capex", "dn_site_capex"] ++ "device_list" :: optNames) ++
          ["coverage_percentage", "ignore_polarities"]).all _) = true
        decide +kernel
    · intro p hp k1 k2
      rw [Function.update_of_ne k1]
      have : (c.params.all fun p => decide (p.name = "device_list") || decide (p.name = "site_detection") ||
          ((kindClass p.kind).isNone && decide (p.kind ≠ .paths?))) = true := by rcases hc with rfl | rfl <;> rfl
      have := List.all_eq_true.mp this p hp
      simp only [k1, k2, decide_false, Bool.false_or, ne_eq, decide_not, Bool.and_eq_true, Option.isNone_iff_eq_none,
        Bool.not_eq_true', decide_eq_false_iff_not] at this
      exact HasKind.simple (h2 p hp) this.1 this.2
    · intro k c' b hk hg
      have hm := Dict.mem_of_get? _ hg
      rw [ha] at hm
      rcases List.mem_append.mp hm with hm | hm
      · obtain ⟨n, hn, hne⟩ := List.mem_map.mp hm
        have hkn : n = k := congrArg Prod.fst hne
        have : ∀ n ∈ topNames c, n ∈ c.args := by rcases hc with rfl | rfl <;> decide
        exact hk (hkn ▸ this n hn)
      · rcases hc with rfl | rfl
        · simp [topExtra] at hm
        · simp [topExtra] at hm
    · rw [hkeys]
      rcases hc with rfl | rfl
      · show ∀ k ∈ "device_list" :: losNames, _
        decide
      · show ∀ k ∈ (["pop_site_capex", "cn_site_capex", "dn_site_capex"] ++ "device_list" :: optNames) ++
          ["coverage_percentage", "ignore_polarities"], _
        decide
    · refine ⟨ds, ?_, ?_⟩
      · rw [Function.update_self, e1]
      · intro d hd
        obtain ⟨T', sv, ant, scan, rates, f1, f2, f3⟩ := (e2 d hd).ex
        exact ⟨T', sv, ant, scan, rates, f1, f2, fun n hn => by rw [Function.update_of_ne (hne n hn)]; exact f3 n hn⟩
    · intro hsd
      rw [Function.update_of_ne (by decide)]
      obtain ⟨p, hp, hpn⟩ := List.mem_map.mp hsd
      have hk : p.kind = .obj .detection := by
        have : (c.params.all fun p => decide (p.name ≠ "site_detection") || decide (p.kind = .obj .detection)) = true := by
          rcases hc with rfl | rfl <;> rfl
        have := List.all_eq_true.mp this p hp
        simpa [hpn] using this
      have := h2 p hp
      rw [hpn, hk] at this
      exact detection_of this
  have hchecks : runChecks (Function.update v "device_list" y) (c.checks env) = .ok () := by
    rw [runChecks_iff]
    intro ch hch
    have hn : ((c.checks env).all fun ch => !ch.names.contains "device_list") = true := by
      rcases hc with rfl | rfl <;> rfl
    have hn := List.all_eq_true.mp hn ch hch
    have : ch.names.map (Function.update v "device_list" y) = ch.names.map v := by
      refine List.map_congr_left fun n hm => ?_
      have : n ≠ "device_list" := fun e => by
        rw [e] at hm
        simp [hm] at hn
      rw [Function.update_of_ne this]
    rw [this]
    exact runChecks_iff.mp h3 ch hch
  refine ⟨Function.update v "device_list" y, a, rfl, t, ?_, ?_, ?_, hchecks, ?_⟩
  · intro k x hk hg
    have hm := Dict.mem_of_get? _ hg
    rw [ha] at hm
    rcases List.mem_append.mp hm with hm | hm
    · have : ∀ n ∈ topNames c, n ∈ c.args := by rcases hc with rfl | rfl <;> decide
      obtain ⟨n, hn, hne⟩ := List.mem_map.mp hm
      have hkn : n = k := congrArg Prod.fst hne
      exact absurd (hkn ▸ this n hn) hk
    · rcases hc with rfl | rfl
      · simp [topExtra] at hm
      · simp only [topExtra, List.mem_cons, List.not_mem_nil, or_false, Prod.mk.injEq] at hm
        rcases hm with hm | hm
        · exact ⟨_, hm.2⟩
        · exact ⟨_, hm.2⟩
  · intro n hn
    have : n ≠ "device_list" := fun e => hn (e ▸ List.mem_map_of_mem hdl)
    rw [Function.update_of_ne this]
    exact h1 n hn
  · intro p hp hn hm
    by_cases k1 : p.name = "device_list"
    · rw [k1, Function.update_self, e1] at hn
      cases hn
    · rw [Function.update_of_ne k1] at hn
      exact opt_default c hp (hasKind_none (hn ▸ h2 p hp)) hm
  · rw [top_init hc e3, ha]
    simp

theorem top_roundtrip (low : env.Case) (hc : c = .los ∨ c = .opt) {o : PyVal} (h : HasKind env (.obj c) o)
    (dist : o.attr "maximum_los_distance" ≠ some .none) (R : RadioOk o) {d : Dict String PyVal} (hd : o.toDict = .ok d) :
    c.fromDict env d = .ok o := by
  obtain ⟨T, a, rfl, t, -, hsupp, hdef, hchecks, hinit⟩ := top_of low hc h R
  have tab : Table c T := by
    refine ⟨hsupp, fun p hp hn => hdef p hp hn fun hm => dist ?_⟩
    have hg := t.get p.name (List.mem_map_of_mem hp)
    rw [hn, hm] at hg
    exact hg
  have hser : serAttrs a = .ok d := hd
  show fromDictN env 2 c d = _
  rw [(t.fits low hser).from tab, hchecks, hinit]
  rfl

/-! ## GIS and system parameters -/

theorem filter_paths {xs : List PyVal} (h : ∀ x ∈ xs, HasKind env .str? x) : ∃ ss : List String,
    (xs.filter PyVal.isSome) = ss.map PyVal.str := by
  induction xs with
  | nil => exact ⟨[], rfl⟩
  | cons x xs ih =>
    obtain ⟨ss, hss⟩ := ih fun y hy => h y (List.mem_cons_of_mem _ hy)
    have := h x List.mem_cons_self
    cases this with
    | strNone => exact ⟨ss, hss⟩
    | strSome s => exact ⟨s :: ss, by rw [List.map_cons, ← hss]; rfl⟩

theorem filter_strs (ss : List String) :
    ((ss.map PyVal.str).filter PyVal.isSome) = ss.map PyVal.str := by
  induction ss with
  | nil => rfl
  | cons s ss ih => simp [PyVal.isSome, ih]

theorem dsm_filter {xs : List PyVal} (h : dsmOk env xs = .ok ()) :
    dsmOk env (xs.filter PyVal.isSome) = .ok () := by
  induction xs with
  | nil => rfl
  | cons x xs ih =>
    cases x with
    | none => simpa [PyVal.isSome] using ih (by simpa [dsmOk] using h)
    | str s =>
      simp only [dsmOk] at h
      cases hx : extOk env ["tif", "tiff"] (.str s) with
      | error e => simp [hx, Except.bind] at h
      | ok u =>
        simp only [hx, Except.bind] at h
        simp only [List.filter_cons, PyVal.isSome, if_true, dsmOk, hx, Except.bind]
        exact ih h
    | _ => simp [dsmOk, extOk, Except.bind] at h

theorem gis_paths {x : PyVal} (h : HasKind env .paths? x) : ∃ ss : List String, keepPaths x = .list (ss.map PyVal.str) ∧
    keepPaths (keepPaths x) = keepPaths x := by
  cases h with
  | paths xs hx =>
    obtain ⟨ss, hss⟩ := filter_paths hx
    exact ⟨ss, by simp only [keepPaths, hss], by simp only [keepPaths, hss, filter_strs]⟩
  | pathsNone => exact ⟨[], rfl, rfl⟩

/-- The attributes of `GISDataParams`. -/
def gisNames : List String := ["boundary_polygon_file_path", "building_outline_file_path", "dsm_file_paths",
  "dtm_file_path", "dhm_file_path", "site_file_path", "base_topology_file_path"]

theorem gis_init {v : String → PyVal} (x : PyVal) (h : keepPaths (v "dsm_file_paths") = x) :
    Cls.gis.init env v = .ok (plain (Function.update v "dsm_file_paths" x) gisNames) := by
  simp [Cls.init, plain, gisNames, h]

theorem gis_roundtrip (low : env.Case) {o : PyVal} (h : HasKind env (.obj .gis) o) {d : Dict String PyVal}
    (hd : o.toDict = .ok d) : Cls.gis.fromDict env d = .ok o := by
  obtain ⟨v, a, rfl, h1, h2, h3, h4⟩ := made h
  obtain ⟨ss, p1, p2⟩ := gis_paths (h2 ⟨"dsm_file_paths", .paths?, some .none⟩ (by simp [Cls.params]))
  dsimp only at p1 p2
  have ha := gis_init (env := env) (v := v) _ rfl
  rw [h4, Except.ok.injEq] at ha
  have hsimple : ∀ p ∈ Cls.gis.params,
      Simple p.kind (Function.update v "dsm_file_paths" (keepPaths (v "dsm_file_paths")) p.name) := by
    intro p hp
    by_cases k : p.name = "dsm_file_paths"
    · have : p.kind = .paths? := by
        have hb : (Cls.gis.params.all fun p => decide (p.name ≠ "dsm_file_paths") || decide (p.kind = .paths?)) = true := rfl
        have := List.all_eq_true.mp hb p hp
        simpa [k] using this
      rw [this, k, Function.update_self, p1]
      exact .paths ss
    · rw [Function.update_of_ne k]
      have hb : (Cls.gis.params.all fun p => decide (p.name = "dsm_file_paths") ||
          ((kindClass p.kind).isNone && decide (p.kind ≠ .paths?))) = true := rfl
      have := List.all_eq_true.mp hb p hp
      simp only [k, decide_false, Bool.false_or, ne_eq, decide_not, Bool.and_eq_true, Option.isNone_iff_eq_none,
        Bool.not_eq_true', decide_eq_false_iff_not] at this
      exact HasKind.simple (h2 p hp) this.1 this.2
  have hsupp : ∀ n, n ∉ Cls.gis.args →
      Function.update v "dsm_file_paths" (keepPaths (v "dsm_file_paths")) n = .none := by
    intro n hn
    have : n ≠ "dsm_file_paths" := fun e => hn (e ▸ by decide)
    rw [Function.update_of_ne this]
    exact h1 n hn
  have F : Flat env .gis (Function.update v "dsm_file_paths" (keepPaths (v "dsm_file_paths"))) a := by
    refine ⟨?_, ?_, ?_, hsimple, ?_⟩
    · rw [ha, Dict.NodupKeys, plain_keys]
      decide
    · rw [ha, plain_keys]
      exact low_of low (by decide +kernel)
    · intro n hn
      rw [ha]
      exact get?_plain _ hn
    · intro k c b hk hg
      rw [ha] at hg
      exact hk (get?_plain_inv _ hg).1
  have hser : serAttrs a = .ok d := hd
  have hm : mergeDict d [] = d := merge_nil (nd_ser hser F.nd)
  have := Flat.from low (n := 2) (table_simple (by decide) hsupp hsimple) F (Outer.nil _ _ _) hser
  rw [hm] at this
  show fromDictN env 2 .gis d = _
  rw [this]
  have hchecks : runChecks (Function.update v "dsm_file_paths" (keepPaths (v "dsm_file_paths"))) (Cls.gis.checks env) =
      .ok () := by
    rw [runChecks_iff] at h3 ⊢
    intro ch hch
    have old := h3 ch hch
    by_cases hn : "dsm_file_paths" ∈ ch.names
    · simp only [Cls.checks, List.mem_cons, List.not_mem_nil, or_false] at hch
      rcases hch with rfl | rfl | rfl | rfl | rfl | rfl | rfl | rfl
      all_goals first
        | (exfalso; revert hn; simp only [extOpt]; decide)
        | skip
      simp only [List.map_cons, List.map_nil, Function.update_self] at old ⊢
      rw [p1]
      dsimp only
      have hk := h2 ⟨"dsm_file_paths", .paths?, some .none⟩ (by simp [Cls.params])
      dsimp only at hk
      generalize v "dsm_file_paths" = x at old p1 hk
      cases hk with
      | paths xs hx =>
        dsimp only at old
        simp only [keepPaths, PyVal.list.injEq] at p1
        rw [← p1]
        exact dsm_filter old
      | pathsNone =>
        simp only [keepPaths, PyVal.list.injEq] at p1
        rw [← p1]
        rfl
    · have : ch.names.map (Function.update v "dsm_file_paths" (keepPaths (v "dsm_file_paths"))) = ch.names.map v := by
        refine List.map_congr_left fun n hm => ?_
        have : n ≠ "dsm_file_paths" := fun e => hn (e ▸ hm)
        rw [Function.update_of_ne this]
      rw [this]
      exact old
  rw [hchecks, gis_init (keepPaths (v "dsm_file_paths")) (by rw [Function.update_self, p2])]
  simp only [Except.bind, Except.map]
  rw [ha]
  simp

theorem flat_roundtrip (low : env.Case) (hc : c ≠ .los) {v : String → PyVal} {a d : Dict String PyVal}
    (h1 : ∀ n, n ∉ c.args → v n = .none) (F : Flat env c v a) (h3 : runChecks v (c.checks env) = .ok ())
    (h4 : c.init env v = .ok a) (hser : serAttrs a = .ok d) : c.fromDict env d = .ok (.obj c a) := by
  have hm : mergeDict d [] = d := merge_nil (nd_ser hser F.nd)
  have := Flat.from low (n := 2) (table_simple hc h1 F.kind) F (Outer.nil _ _ _) hser
  rw [hm] at this
  show fromDictN env 2 c d = _
  rw [this, h3, h4]
  rfl

/-- The attributes of `SystemParams`. -/
def sysNames : List String := ["output_dir", "debug_mode", "logger_level", "log_file", "log_to_stderr"]

/-! ## Comparison -/

/-- Attributes that are equal to themselves. -/
def SelfEq : PyVal → Prop
  | .list xs => ∀ y ∈ xs, y.eqMethod y = .ok .yes
  | x => x.eqMethod x = .ok .yes

theorem eqMethods_map (xs : List PyVal) : (eqMethods xs).map Prod.fst = xs := by
  induction xs with
  | nil => rfl
  | cons x xs ih => simp [eqMethods, ih]

theorem eqMethods_snd {xs : List PyVal} {f : PyVal × (PyVal → Except Err EqRes)} (h : f ∈ eqMethods xs) :
    f.1 ∈ xs ∧ f.2 = f.1.eqMethod := by
  induction xs with
  | nil => simp [eqMethods] at h
  | cons x xs ih =>
    simp only [eqMethods, List.mem_cons] at h
    rcases h with rfl | h
    · simp
    · exact ⟨List.mem_cons_of_mem _ (ih h).1, (ih h).2⟩

theorem eqItems_self {fs : List (PyVal × (PyVal → Except Err EqRes))} (h : ∀ f ∈ fs, f.2 f.1 = .ok .yes) :
    eqItems fs (fs.map Prod.fst) = .ok true := by
  induction fs with
  | nil => rfl
  | cons f fs ih =>
    simp [eqItems, h f List.mem_cons_self, Except.bind, ih fun g hg => h g (List.mem_cons_of_mem _ hg)]

theorem eqList_self {xs : List PyVal} (h : ∀ y ∈ xs, y.eqMethod y = .ok .yes) :
    eqItems ((eqMethods xs).insertionSort fun a b => a.1.le b.1 = true) (sortVals xs) = .ok true := by
  have hm : sortVals xs = ((eqMethods xs).insertionSort fun a b => a.1.le b.1 = true).map Prod.fst := by
    rw [List.map_insertionSort (r := fun (a b : PyVal × (PyVal → Except Err EqRes)) => a.1.le b.1 = true)
      (s := fun (a b : PyVal) => a.le b = true)]
    · rw [eqMethods_map]
      rfl
    · intro a _ b _
      exact Iff.rfl
  rw [hm]
  refine eqItems_self fun f hf => ?_
  obtain ⟨h1, h2⟩ := eqMethods_snd ((List.perm_insertionSort _ _).mem_iff.mp hf)
  rw [h2]
  exact h _ h1

theorem eqAttrs_self {l : List (String × PyVal)} {b : Dict String PyVal} (h : ∀ e ∈ l, b.get? e.1 = some e.2)
    (hs : ∀ e ∈ l, SelfEq e.2) : eqAttrs l b = .ok .yes := by
  induction l with
  | nil => simp [eqAttrs]
  | cons e l ih =>
    obtain ⟨k, x⟩ := e
    have hx := h (k, x) List.mem_cons_self
    have sx := hs (k, x) List.mem_cons_self
    have ih' := ih (fun e he => h e (List.mem_cons_of_mem _ he)) (fun e he => hs e (List.mem_cons_of_mem _ he))
    simp only at hx sx
    cases x with
    | list xs =>
      simp only [eqAttrs]
      rw [hx]
      simp [eqList_self sx, Except.bind, ih']
    | num q =>
      simp only [SelfEq] at sx
      simp only [eqAttrs]
      rw [hx]
      simp [sx, Except.bind, ih']
    | str q =>
      simp only [SelfEq] at sx
      simp only [eqAttrs]
      rw [hx]
      simp [sx, Except.bind, ih']
    | row q =>
      simp only [SelfEq] at sx
      simp only [eqAttrs]
      rw [hx]
      simp [sx, Except.bind, ih']
    | _ =>
      simp only [eqAttrs]
      rw [hx]
      exact sx

theorem obj_self {c : Cls} {a : Dict String PyVal} (nd : a.NodupKeys) (h : ∀ e ∈ a, SelfEq e.2) :
    (PyVal.obj c a).eqMethod (.obj c a) = .ok .yes := by
  simp only [PyVal.eqMethod, if_true]
  exact eqAttrs_self (fun e he => (Dict.mem_iff_get? nd _ _).mp he) h

theorem Simple.self {k : Kind} {x : PyVal} (h : Simple k x) : SelfEq x := by
  cases h with
  | paths xs =>
    intro y hy
    obtain ⟨s, -, rfl⟩ := List.mem_map.mp hy
    simp [PyVal.eqMethod, EqRes.ofBool]
  | _ => simp [SelfEq, PyVal.eqMethod, EqRes.ofBool]

theorem mem_plain {T : String → PyVal} {l : List String} {e : String × PyVal} (h : e ∈ plain T l) :
    e.1 ∈ l ∧ e.2 = T e.1 := by
  obtain ⟨n, hn, rfl⟩ := List.mem_map.mp h
  exact ⟨hn, rfl⟩

theorem readData_self {f : String → Except Err String} {x y : PyVal} (h : readData f x = .ok y) : SelfEq y := by
  cases x with
  | none =>
    simp only [readData, Except.ok.injEq] at h
    subst h
    simp [SelfEq, PyVal.eqMethod]
  | str s =>
    simp only [readData] at h
    cases hf : f s with
    | error e => simp [hf, Except.map] at h
    | ok t =>
      simp only [hf, Except.map, Except.ok.injEq] at h
      subst h
      simp [SelfEq, PyVal.eqMethod, EqRes.ofBool]
  | _ => simp [readData] at h

theorem rows_self (rows : List (List ℚ)) : SelfEq (.list (rows.map PyVal.row)) := by
  intro y hy
  obtain ⟨s, -, rfl⟩ := List.mem_map.mp hy
  simp [PyVal.eqMethod, EqRes.ofBool]

theorem readRates_self {v : String → PyVal} {y : PyVal} (h : readRates env v = .ok y) : SelfEq y := by
  unfold readRates at h
  split at h
  · simp only [Except.ok.injEq] at h
    subst h
    exact rows_self _
  · rename_i s _
    cases hf : env.rates s (v "minimum_mcs_level") (v "minimum_tx_power") (v "maximum_tx_power") with
    | error e => simp [hf, Except.map] at h
    | ok rows =>
      simp only [hf, Except.map, Except.ok.injEq] at h
      subst h
      exact rows_self _
  · simp at h

theorem args_simple {v : String → PyVal} (hk : ∀ p ∈ c.params, Simple p.kind (v p.name)) {n : String} (hn : n ∈ c.args) :
    SelfEq (v n) := by
  obtain ⟨p, hp, rfl⟩ := List.mem_map.mp hn
  exact (hk p hp).self

theorem SectorVal.self {v : String → PyVal} {ant scan rates : PyVal} (S : SectorVal env v ant scan rates) :
    (PyVal.obj .sector (sectorAttrs v ant scan rates)).eqMethod (.obj .sector (sectorAttrs v ant scan rates)) = .ok .yes := by
  refine obj_self (by rw [Dict.NodupKeys, sector_keys]; decide) fun e he => ?_
  simp only [sectorAttrs, List.mem_append, List.mem_cons, List.not_mem_nil, or_false] at he
  rcases he with he | rfl | rfl | rfl | rfl | rfl
  · obtain ⟨h1, h2⟩ := mem_plain he
    rw [h2]
    refine args_simple S.kind ?_
    revert h1
    generalize e.1 = n
    revert n
    decide
  · exact readData_self S.ant
  · exact args_simple S.kind (by decide)
  · exact readData_self S.scan
  · exact args_simple S.kind (by decide)
  · exact readRates_self S.rates

theorem DeviceVal.self {T sv : String → PyVal} {ant scan rates : PyVal} (D : DeviceVal env T sv ant scan rates) :
    (PyVal.obj .device (plain T devNames)).eqMethod (.obj .device (plain T devNames)) = .ok .yes := by
  refine obj_self (by rw [Dict.NodupKeys, plain_keys]; decide) fun e he => ?_
  obtain ⟨h1, h2⟩ := mem_plain he
  rw [h2]
  simp only [devNames, List.mem_cons, List.not_mem_nil, or_false] at h1
  rcases h1 with h | h | h | h | h <;> rw [h]
  · obtain ⟨q, hq⟩ := D.sku
    rw [hq]
    exact (Simple.str q).self
  · rw [D.sector]
    exact D.val.self
  · obtain ⟨q, hq⟩ := D.capex
    rw [hq]
    exact (Simple.num q).self
  · obtain ⟨q, hq⟩ := D.nodes
    rw [hq]
    exact (Simple.num q).self
  · exact D.type.self

theorem Top.self (t : Top env c T a) (hx : ∀ k x, k ∉ c.args → a.get? k = some x → SelfEq x) :
    (PyVal.obj c a).eqMethod (.obj c a) = .ok .yes := by
  refine obj_self t.nd fun e he => ?_
  have hg := (Dict.mem_iff_get? t.nd _ _).mp he
  by_cases hk : e.1 ∈ c.args
  · have hT := t.get e.1 hk
    rw [hg, Option.some.injEq] at hT
    rw [hT]
    by_cases k1 : e.1 = "device_list"
    · obtain ⟨ds, hds, hset⟩ := t.devs
      rw [k1, hds]
      intro y hy
      obtain ⟨d, hd, rfl⟩ := List.mem_map.mp hy
      obtain ⟨T', sv, ant, scan, rates, rfl, D, -⟩ := (hset d hd).ex
      exact D.self
    · by_cases k2 : e.1 = "site_detection"
      · obtain ⟨v, hv, -, hkind, -⟩ := t.det (k2 ▸ hk)
        rw [k2, hv]
        refine obj_self (by rw [Dict.NodupKeys, plain_keys]; decide) fun f hf => ?_
        obtain ⟨h1, h2⟩ := mem_plain hf
        rw [h2]
        exact args_simple hkind h1
      · obtain ⟨p, hp, hpn⟩ := List.mem_map.mp hk
        rw [← hpn]
        exact (t.kind p hp (hpn ▸ k1) (hpn ▸ k2)).self
  · exact hx _ _ hk hg

end CfgDict

open CfgDict in
/-- **C32** (partial). A configuration object that was built by its constructor from values of the annotated types, and
that `to_dict` can write, is what `from_dict` builds from the dictionary: all attributes are the same, those of objects in
it too. Two conditions are needed: `maximum_los_distance` is not `None`, and the radio parameters of an object with devices
are such as sectors accept. The violations below show why, that `to_dict` fails for sectors with pattern files, and that `==`
does not compare all fields. -/
theorem C32_roundtrip_partial (env : CfgEnv) (low : env.Case) (c : Cls) (o : PyVal) (h : HasKind env (.obj c) o)
    (dist : o.attr "maximum_los_distance" ≠ some .none) (R : RadioOk o) (d : Dict String PyVal) (hd : o.toDict = .ok d) :
    c.fromDict env d = .ok o := by
  cases c with
  | sector =>
    obtain ⟨v, ant, scan, rates, rfl, S⟩ := sector_of h
    have hser : serAttrs (sectorAttrs v ant scan rates) = .ok d := hd
    exact flat_roundtrip low (by decide) S.supp (S.flat low) S.check S.init hser
  | device =>
    obtain ⟨T, sv, ant, scan, rates, rfl, D⟩ := device_of h
    have hser : serAttrs (plain T devNames) = .ok d := hd
    have := D.from low (n := 1) (OuterDev.nil env sv) hser
    rwa [merge_nil (nd_ser hser (by rw [Dict.NodupKeys, plain_keys]; decide))] at this
  | detection =>
    obtain ⟨v, rfl, h1, h2, h3⟩ := detection_of h
    have hser : serAttrs (plain v detNames) = .ok d := hd
    exact flat_roundtrip low (by decide) h1 (detection_flat low h2) h3 rfl hser
  | gis => exact gis_roundtrip low h hd
  | los => exact top_roundtrip low (.inl rfl) h dist R hd
  | opt => exact top_roundtrip low (.inr rfl) h dist R hd
  | system =>
    obtain ⟨v, a, rfl, h1, h2, h3, h4⟩ := made h
    have hk := flat_kinds (.inr (.inr rfl)) h2
    have ha : a = plain v sysNames := by simpa [Cls.init, sysNames] using h4.symm
    have F : Flat env .system v a := by
      refine ⟨?_, ?_, ?_, hk, ?_⟩
      · rw [ha, Dict.NodupKeys, plain_keys]
        decide
      · rw [ha, plain_keys]
        exact low_of low (by decide +kernel)
      · intro n hn
        rw [ha]
        exact get?_plain _ hn
      · intro k c b hk hg
        rw [ha] at hg
        exact hk (get?_plain_inv _ hg).1
    have hser : serAttrs a = .ok d := hd
    exact flat_roundtrip low (by decide) h1 F h3 h4 hser

open CfgDict in
/-- **C32** (partial), the comparison. Two objects of any class with the same attributes compare equal (there is no need for
them to be the same object in memory), and `SiteDetectionParams` compare equal only if all attributes are the same. For the
other classes the second half is wrong, see the violations. -/
theorem C32_eq_partial (env : CfgEnv) (low : env.Case) :
    (∀ c o, HasKind env (.obj c) o → RadioOk o → o.eq o = .ok true) ∧
    ∀ o o', HasKind env (.obj .detection) o → HasKind env (.obj .detection) o' → (o.eq o' = .ok true ↔ o = o') := by
  have first : ∀ c o, HasKind env (.obj c) o → RadioOk o → o.eq o = .ok true := by
    intro c o h R
    suffices hm : o.eqMethod o = .ok .yes by simp [PyVal.eq, hm, Except.bind]
    cases c with
    | sector =>
      obtain ⟨v, ant, scan, rates, rfl, S⟩ := sector_of h
      exact S.self
    | device =>
      obtain ⟨T, sv, ant, scan, rates, rfl, D⟩ := device_of h
      exact D.self
    | detection =>
      obtain ⟨v, rfl, -, h2, -⟩ := detection_of h
      refine obj_self (by rw [Dict.NodupKeys, plain_keys]; decide) fun f hf => ?_
      obtain ⟨e1, e2⟩ := mem_plain hf
      rw [e2]
      exact args_simple h2 e1
    | gis =>
      obtain ⟨v, a, rfl, -, h2, -, h4⟩ := made h
      have ha := gis_init (env := env) (v := v) _ rfl
      rw [h4, Except.ok.injEq] at ha
      rw [ha]
      refine obj_self (by rw [Dict.NodupKeys, plain_keys]; decide) fun f hf => ?_
      obtain ⟨e1, e2⟩ := mem_plain hf
      rw [e2]
      obtain ⟨p, hp, hpn⟩ := List.mem_map.mp (show f.1 ∈ Cls.gis.args from e1)
      by_cases k : f.1 = "dsm_file_paths"
      · obtain ⟨ss, p1, -⟩ := gis_paths (h2 ⟨"dsm_file_paths", .paths?, some .none⟩ (by simp [Cls.params]))
        dsimp only at p1
        rw [k, Function.update_self, p1]
        exact (Simple.paths ss).self
      · rw [Function.update_of_ne k, ← hpn]
        have hb : (Cls.gis.params.all fun p => decide (p.name = "dsm_file_paths") ||
            ((kindClass p.kind).isNone && decide (p.kind ≠ .paths?))) = true := rfl
        have := List.all_eq_true.mp hb p hp
        rw [← hpn] at k
        simp only [k, decide_false, Bool.false_or, ne_eq, decide_not, Bool.and_eq_true, Option.isNone_iff_eq_none,
          Bool.not_eq_true', decide_eq_false_iff_not] at this
        exact (HasKind.simple (h2 p hp) this.1 this.2).self
    | los =>
      obtain ⟨T, a, rfl, t, hx, -⟩ := top_of low (.inl rfl) h R
      refine t.self fun k x hk hg => ?_
      obtain ⟨q, rfl⟩ := hx k x hk hg
      exact (Simple.num q).self
    | opt =>
      obtain ⟨T, a, rfl, t, hx, -⟩ := top_of low (.inr rfl) h R
      refine t.self fun k x hk hg => ?_
      obtain ⟨q, rfl⟩ := hx k x hk hg
      exact (Simple.num q).self
    | system =>
      obtain ⟨v, a, rfl, -, h2, -, h4⟩ := made h
      have ha : a = plain v sysNames := by simpa [Cls.init, sysNames] using h4.symm
      rw [ha]
      refine obj_self (by rw [Dict.NodupKeys, plain_keys]; decide) fun f hf => ?_
      obtain ⟨e1, e2⟩ := mem_plain hf
      rw [e2]
      exact args_simple (flat_kinds (.inr (.inr rfl)) h2) e1
  refine ⟨first, fun o o' h h' => ⟨fun he => ?_, fun he => ?_⟩⟩
  · obtain ⟨v, rfl, -, h2, -⟩ := detection_of h
    obtain ⟨w, rfl, -, h2', -⟩ := detection_of h'
    have num : ∀ (u : String → PyVal), (∀ p ∈ Cls.detection.params, Simple p.kind (u p.name)) →
        (∃ a b c d, u "dn_deployment" = .num a ∧ u "detect_highest" = .num b ∧ u "detect_centers" = .num c ∧
          u "detect_corners" = .num d) ∧ (u "max_corner_angle" = .none ∨ ∃ q, u "max_corner_angle" = .num q) := by
      intro u hu
      have k1 := hu (pNum "dn_deployment" 1) (by simp [Cls.params])
      have k2 := hu (pNum "detect_highest" 1) (by simp [Cls.params])
      have k3 := hu (pNum "detect_centers" 0) (by simp [Cls.params])
      have k4 := hu (pNum "detect_corners" 1) (by simp [Cls.params])
      have k5 := hu (pNum? "max_corner_angle") (by simp [Cls.params])
      simp only [pNum, pNum?] at k1 k2 k3 k4 k5
      generalize u "dn_deployment" = x1 at *
      generalize u "detect_highest" = x2 at *
      generalize u "detect_centers" = x3 at *
      generalize u "detect_corners" = x4 at *
      generalize u "max_corner_angle" = x5 at *
      cases k1
      cases k2
      cases k3
      cases k4
      refine ⟨⟨_, _, _, _, rfl, rfl, rfl, rfl⟩, ?_⟩
      cases k5
      · exact .inl rfl
      · exact .inr ⟨_, rfl⟩
    obtain ⟨⟨a, b, c, d, e1, e2, e3, e4⟩, e5⟩ := num v h2
    obtain ⟨⟨a', b', c', d', f1, f2, f3, f4⟩, f5⟩ := num w h2'
    have expand : ∀ (u : String → PyVal), plain u detNames = [("dn_deployment", u "dn_deployment"),
      ("detect_highest", u "detect_highest"), ("detect_centers", u "detect_centers"),
      ("detect_corners", u "detect_corners"), ("max_corner_angle", u "max_corner_angle")] := fun u => rfl
    rw [expand v, expand w, e1, e2, e3, e4, f1, f2, f3, f4] at he ⊢
    by_cases q1 : a = a'
    · by_cases q2 : b = b'
      · by_cases q3 : c = c'
        · by_cases q4 : d = d'
          · subst q1 q2 q3 q4
            rcases e5 with e5 | ⟨q, e5⟩ <;> rcases f5 with f5 | ⟨q', f5⟩ <;> rw [e5, f5] at he ⊢
            · simp [PyVal.eq, PyVal.eqMethod, eqAttrs, EqRes.ofBool, Except.bind, Except.map] at he
            · simp [PyVal.eq, PyVal.eqMethod, eqAttrs, EqRes.ofBool, Except.bind, Except.map] at he
            · by_cases q5 : q = q'
              · rw [q5]
              · simp [PyVal.eq, PyVal.eqMethod, eqAttrs, EqRes.ofBool, Except.bind, q5] at he
          · simp [PyVal.eq, PyVal.eqMethod, eqAttrs, EqRes.ofBool, Except.bind, q4] at he
        · simp [PyVal.eq, PyVal.eqMethod, eqAttrs, EqRes.ofBool, Except.bind, q3] at he
      · simp [PyVal.eq, PyVal.eqMethod, eqAttrs, EqRes.ofBool, Except.bind, q2] at he
    · simp [PyVal.eq, PyVal.eqMethod, eqAttrs, EqRes.ofBool, Except.bind, q1] at he
  · subst he
    refine first .detection o h ?_
    obtain ⟨v, rfl, -, -, -⟩ := detection_of h
    refine ⟨?_, ?_, ?_, ?_⟩ <;> intro q hq <;> exact absurd (get?_plain_inv v hq).1 (by decide)

/-! ## Examples -/

/-- Files of one content, names in the case that is wanted. -/
def plainEnv : CfgEnv where
  fold := id
  upper := id
  antenna := fun _ => .ok "antenna"
  scan := fun _ => .ok "scan"
  rates := fun _ _ _ _ => .ok [[3, 5, 67, 0], [9, 9, 1027, 0]]
  defaultRates := [[3, 3, 0, 0], [12, 18, 1800, 3]]

theorem plainEnv_case : plainEnv.Case := ⟨fun _ _ => rfl, fun _ _ => rfl⟩

theorem kw_nil (env : CfgEnv) (c : Cls) : ∀ p ∈ c.params, ∀ x, Dict.get? ([] : Dict String PyVal) p.name = some x →
    HasKind env p.kind x := by simp

theorem kw_cons {env : CfgEnv} {c : Cls} {kw : Dict String PyVal} (n : String) (k : Kind) {x : PyVal}
    (hx : HasKind env k x) (hb : (c.params.all fun p => decide (p.name ≠ n) || decide (p.kind = k)) = true)
    (h : ∀ p ∈ c.params, ∀ x, kw.get? p.name = some x → HasKind env p.kind x) :
    ∀ p ∈ c.params, ∀ y, Dict.get? ((n, x) :: kw) p.name = some y → HasKind env p.kind y := by
  intro p hp y hy
  rw [Dict.get?_cons] at hy
  by_cases hn : n = p.name
  · rw [if_pos hn, Option.some.injEq] at hy
    have := List.all_eq_true.mp hb p hp
    simp only [← hn, ne_eq, not_true_eq_false, decide_false, Bool.false_or, decide_eq_true_eq] at this
    rw [this, ← hy]
    exact hx
  · rw [if_neg hn] at hy
    exact h p hp y hy

/-- `LOSParams` with two devices, one of them with a rate file and its own rain rate. -/
def losExample : Except Err PyVal :=
  (Cls.sector.make plainEnv [("mcs_map_file_path", .str "rates.csv"), ("rain_rate", .num 5)]).bind fun s =>
  (Cls.device.make plainEnv [("device_sku", .str "A"), ("sector_params", s)]).bind fun a =>
  (Cls.sector.make plainEnv []).bind fun s' =>
  (Cls.device.make plainEnv [("device_sku", .str "B"), ("sector_params", s'), ("device_type", .enum .device "CN")]).bind
    fun b => Cls.los.make plainEnv [("device_list", .list [a, b]), ("rain_rate", .num 42)]

theorem bind_ok {α β : Type} {x : Except Err α} {f : α → Except Err β} {y : β} (h : x.bind f = .ok y) :
    ∃ a, x = .ok a ∧ f a = .ok y := by
  cases x with
  | error e => cases h
  | ok a => exact ⟨a, rfl, h⟩

theorem losExample_kind {o : PyVal} (h : losExample = .ok o) : HasKind plainEnv (.obj .los) o := by
  obtain ⟨s, h1, h⟩ := bind_ok h
  obtain ⟨a, h2, h⟩ := bind_ok h
  obtain ⟨s', h3, h⟩ := bind_ok h
  obtain ⟨b, h4, h⟩ := bind_ok h
  have k1 : HasKind plainEnv (.obj .sector) s :=
    .obj _ _ _ (kw_cons _ .str? (.strSome _) rfl (kw_cons _ .num (.num _) rfl (kw_nil _ _))) h1
  have k2 : HasKind plainEnv (.obj .device) a :=
    .obj _ _ _ (kw_cons _ .str (.str _) rfl (kw_cons _ (.obj .sector) k1 rfl (kw_nil _ _))) h2
  have k3 : HasKind plainEnv (.obj .sector) s' := .obj _ _ _ (kw_nil _ _) h3
  have k4 : HasKind plainEnv (.obj .device) b :=
    .obj _ _ _ (kw_cons _ .str (.str _) rfl (kw_cons _ (.obj .sector) k3 rfl
      (kw_cons _ (.enum .device) (.enum _ _ 1 (by decide)) rfl (kw_nil _ _)))) h4
  refine .obj _ _ _ (kw_cons _ .devices (.devices _ ?_) rfl (kw_cons _ .num (.num _) rfl (kw_nil _ _))) h
  intro x hx
  rcases List.mem_cons.mp hx with rfl | hx
  · exact k2
  · rcases List.mem_cons.mp hx with rfl | hx
    · exact k4
    · simp at hx

/-- The example can be written, and its radio parameters are in the range. -/
theorem losExample_ok : ∃ o ∈ losExample.toOption, o.toDict.toOption.isSome = true ∧
    o.number "maximum_los_distance" = some 200 ∧ o.number "carrier_frequency" = some 60000 ∧
    o.number "noise_figure" = some 7 ∧ o.number "rain_rate" = some 42 ∧
    o.number "link_availability_percentage" = some (999 / 10) := by decide +kernel

theorem number_eq {o : PyVal} {n : String} {q : ℚ} (h : o.number n = some q) : o.attr n = some (.num q) := by
  unfold PyVal.number at h
  split at h
  · rename_i r hr
    rw [hr]
    simpa using h
  · cases h

/-- The conditions of the round trip are met. -/
example : ∃ o d, HasKind plainEnv (.obj .los) o ∧ o.attr "maximum_los_distance" ≠ some .none ∧ RadioOk o ∧
    o.toDict = .ok d ∧ Cls.los.fromDict plainEnv d = .ok o ∧ o.eq o = .ok true := by
  obtain ⟨o, ho, h1, h2, h3, h4, h5, h6⟩ := losExample_ok
  have ho' : losExample = .ok o := by
    cases hl : losExample with
    | error e => simp [hl, Except.toOption] at ho
    | ok x => simpa [hl, Except.toOption] using ho
  have hk := losExample_kind ho'
  have hd : ∃ d, o.toDict = .ok d := by
    cases hl : o.toDict with
    | error e => simp [hl, Except.toOption] at h1
    | ok x => exact ⟨x, rfl⟩
  obtain ⟨d, hd⟩ := hd
  have hdist : o.attr "maximum_los_distance" ≠ some .none := by
    rw [number_eq h2]
    simp
  have R : RadioOk o := by
    refine ⟨?_, ?_, ?_, ?_⟩ <;> intro q hq
    · rw [number_eq h3] at hq
      simp only [Option.some.injEq, PyVal.num.injEq] at hq
      rw [← hq]
      norm_num
    · rw [number_eq h4] at hq
      simp only [Option.some.injEq, PyVal.num.injEq] at hq
      rw [← hq]
      norm_num
    · rw [number_eq h5] at hq
      simp only [Option.some.injEq, PyVal.num.injEq] at hq
      rw [← hq]
      norm_num
    · rw [number_eq h6] at hq
      simp only [Option.some.injEq, PyVal.num.injEq] at hq
      rw [← hq]
      norm_num
  exact ⟨o, d, hk, hdist, R, hd, C32_roundtrip_partial plainEnv plainEnv_case .los o hk hdist R d hd,
    (C32_eq_partial plainEnv plainEnv_case).1 .los o hk R⟩

/-- Values after which the comparison goes on: numbers, strings, rows and lists. -/
def PyVal.GoesOn (x : PyVal) : Prop :=
  (∃ q, x = .num q) ∨ (∃ s, x = .str s) ∨ (∃ r, x = .row r) ∨ ∃ xs, x = .list xs

open CfgDict in
/-- **C32** (partial), the comparison. Objects that compare equal are of the same class, and each number, string and row of
the first that comes before the first attribute of another type (lists do not count) is the same in the second. -/
theorem C32_eq_before_partial (c c' : Cls) (a b : List (String × PyVal))
    (h : PyVal.eq (.obj c a) (.obj c' b) = .ok true) :
    c = c' ∧ ∀ pre k x post, a = pre ++ (k, x) :: post → (∀ e ∈ pre, e.2.GoesOn) →
      ((∃ q, x = .num q) ∨ (∃ s, x = .str s) ∨ ∃ r, x = .row r) → Dict.get? b k = some x := by
  have hcc : c = c' := by
    by_contra ne
    unfold PyVal.eq at h
    simp only [PyVal.eqMethod, if_neg ne, if_neg (Ne.symm ne), Except.bind, Except.map] at h
    cases h
  subst hcc
  have hy : ∃ r, eqAttrs a b = .ok r ∧ r ≠ .no := by
    unfold PyVal.eq at h
    simp only [PyVal.eqMethod, if_true] at h
    cases he : eqAttrs a b with
    | error e => rw [he] at h; cases h
    | ok r =>
      refine ⟨r, rfl, ?_⟩
      rintro rfl
      rw [he] at h
      cases h
  refine ⟨rfl, ?_⟩
  clear h
  induction a with
  | nil => intro pre k x post e; simp at e
  | cons e a ih =>
    obtain ⟨k0, x0⟩ := e
    intro pre k x post he hpre hx
    obtain ⟨r, hr, hno⟩ := hy
    unfold eqAttrs at hr
    cases hg : Dict.get? b k0 with
    | none => simp only [hg] at hr; cases hr
    | some y =>
      simp only [hg] at hr
      -- numbers, strings and rows: the other value is the same, and the loop goes on
      have plain : ∀ f : Except Err EqRes, (f = .ok .yes → y = x0) →
          (f.bind fun r => if r = .yes then eqAttrs a b else .ok .no) = .ok r →
          y = x0 ∧ ∃ r, eqAttrs a b = .ok r ∧ r ≠ .no := by
        intro f hf hb
        cases f with
        | error e => cases hb
        | ok w =>
          cases w with
          | yes => exact ⟨hf rfl, r, hb, hno⟩
          | no => exact absurd (by simpa [Except.bind] using hb.symm) hno
          | notImplemented => exact absurd (by simpa [Except.bind] using hb.symm) hno
      have step : x0.GoesOn → ∃ r, eqAttrs a b = .ok r ∧ r ≠ .no := by
        rintro (⟨q, rfl⟩ | ⟨q, rfl⟩ | ⟨q, rfl⟩ | ⟨xs, rfl⟩)
        · refine (plain _ ?_ hr).2
          cases y <;> simp [PyVal.eqMethod, EqRes.ofBool, eq_comm]
        · refine (plain _ ?_ hr).2
          cases y <;> simp [PyVal.eqMethod, EqRes.ofBool, eq_comm]
        · refine (plain _ ?_ hr).2
          cases y <;> simp [PyVal.eqMethod, EqRes.ofBool, eq_comm]
        · cases y with
          | list ys =>
            dsimp only at hr
            cases hi : eqItems ((eqMethods xs).insertionSort fun a b => a.1.le b.1 = true) (sortVals ys) with
            | error e => rw [hi] at hr; cases hr
            | ok w =>
              rw [hi] at hr
              cases w with
              | true => exact ⟨r, hr, hno⟩
              | false => exact absurd (by simpa [Except.bind] using hr.symm) hno
          | _ => cases hr
      cases pre with
      | nil =>
        simp only [List.nil_append, List.cons.injEq, Prod.mk.injEq] at he
        obtain ⟨⟨rfl, rfl⟩, rfl⟩ := he
        rw [hg]
        congr 1
        rcases hx with ⟨q, rfl⟩ | ⟨q, rfl⟩ | ⟨q, rfl⟩
        · refine (plain _ ?_ hr).1
          cases y <;> simp [PyVal.eqMethod, EqRes.ofBool, eq_comm]
        · refine (plain _ ?_ hr).1
          cases y <;> simp [PyVal.eqMethod, EqRes.ofBool, eq_comm]
        · refine (plain _ ?_ hr).1
          cases y <;> simp [PyVal.eqMethod, EqRes.ofBool, eq_comm]
      | cons p pre =>
        simp only [List.cons_append, List.cons.injEq] at he
        obtain ⟨rfl, he⟩ := he
        exact ih (step (hpre _ (List.mem_cons_self ..))) pre k x post he
          (fun e h => hpre e (List.mem_cons_of_mem _ h)) hx

/-- Sectors with rates are told apart by what follows the rates. -/
example : ¬ PyVal.eq (.obj .sector [("mcs_map", .list [.row [1, 2]]), ("horizontal_scan_range", .num 70)])
    (.obj .sector [("mcs_map", .list [.row [1, 2]]), ("horizontal_scan_range", .num 60)]) = .ok true := fun h => by
  have := (C32_eq_before_partial _ _ _ _ h).2 [("mcs_map", .list [.row [1, 2]])] "horizontal_scan_range" (.num 70) [] rfl
    (by simp [PyVal.GoesOn]) (.inl ⟨_, rfl⟩)
  simp [Dict.get?] at this

/-- `SiteDetectionParams` that differ in the last attribute are told apart. -/
example : ∃ o ∈ (Cls.detection.make plainEnv []).toOption,
    ∃ o' ∈ (Cls.detection.make plainEnv [("max_corner_angle", .num 90)]).toOption, (o.eq o').toOption = some false := by
  decide +kernel

/-! ## Violations -/

/-- A device that the constructor accepts. -/
def devExample (sku : String) (kw : Dict String PyVal) : Except Err PyVal :=
  (Cls.sector.make plainEnv []).bind fun s =>
    Cls.device.make plainEnv ([("device_sku", .str sku), ("sector_params", s)] ++ kw)

/-- `maximum_los_distance = None` (no limit) comes back as 200 m: `from_dict` replaces `None` by the default value. -/
theorem C32_no_limit_violation : ∃ a ∈ (devExample "A" []).toOption,
    ∃ o ∈ (Cls.los.make plainEnv [("device_list", .list [a]), ("maximum_los_distance", .none)]).toOption,
    ∃ d ∈ o.toDict.toOption, ∃ o' ∈ (Cls.los.fromDict plainEnv d).toOption,
      o.number "maximum_los_distance" = none ∧ o'.number "maximum_los_distance" = some 200 := by decide +kernel

/-- `to_dict` raises if a sector has an antenna pattern, and so it does for each object with such a sector. -/
theorem C32_pattern_violation :
    ∃ s ∈ (Cls.sector.make plainEnv [("antenna_pattern_file_path", .str "antenna.txt")]).toOption,
    ∃ a ∈ (Cls.device.make plainEnv [("device_sku", .str "A"), ("sector_params", s)]).toOption,
    ∃ o ∈ (Cls.los.make plainEnv [("device_list", .list [a])]).toOption,
      s.toDict.toOption.isSome = false ∧ o.toDict.toOption.isSome = false := by decide +kernel

/-- `LOSParams` and `OptimizerParams` do not check the radio parameters that they hand down to the sectors; with a negative
rain rate the object is made and written, but cannot be read again. -/
theorem C32_range_violation : ∃ a ∈ (devExample "A" []).toOption,
    ∃ o ∈ (Cls.los.make plainEnv [("device_list", .list [a]), ("rain_rate", .num (-1))]).toOption,
    ∃ d ∈ o.toDict.toOption, (Cls.los.fromDict plainEnv d).toOption.isSome = false := by decide +kernel

/-- Devices that differ in `node_capex` and `number_of_nodes_per_site` compare equal: the comparison returns at the nested
sector. -/
theorem C32_eq_device_violation : ∃ a ∈ (devExample "A" []).toOption,
    ∃ b ∈ (devExample "A" [("node_capex", .num 9999), ("number_of_nodes_per_site", .num 2)]).toOption,
      (a.eq b).toOption = some true ∧ a.number "node_capex" = some 250 ∧ b.number "node_capex" = some 9999 := by
  decide +kernel

/-- `LOSParams` that differ in the least and the greatest distance compare equal: the comparison returns at the first
attribute that is `None`. -/
theorem C32_eq_none_violation : ∃ a ∈ (devExample "A" []).toOption,
    ∃ o ∈ (Cls.los.make plainEnv [("device_list", .list [a])]).toOption,
    ∃ o' ∈ (Cls.los.make plainEnv [("device_list", .list [a]), ("maximum_los_distance", .num 500),
      ("minimum_los_distance", .num 10)]).toOption,
      (o.eq o').toOption = some true ∧ o.number "maximum_los_distance" = some 200 ∧
        o'.number "maximum_los_distance" = some 500 := by
  decide +kernel

/-- `LOSParams` with one device are equal to those with one more device, but the other way round the comparison raises. -/
theorem C32_eq_longer_violation : ∃ a ∈ (devExample "A" []).toOption, ∃ b ∈ (devExample "B" []).toOption,
    ∃ o ∈ (Cls.los.make plainEnv [("device_list", .list [a])]).toOption,
    ∃ o' ∈ (Cls.los.make plainEnv [("device_list", .list [a, b])]).toOption,
      (o.eq o').toOption = some true ∧ (o'.eq o).toOption = none := by
  decide +kernel

/-- Inside of lists an answer `NotImplemented` counts as equal: `LOSParams` whose devices have the MCS limits none and 3
compare equal, the other way round they do not. -/
theorem C32_eq_asymmetric_violation : ∃ a ∈ (devExample "A" []).toOption,
    ∃ s ∈ (Cls.sector.make plainEnv [("minimum_mcs_level", .num 3)]).toOption,
    ∃ b ∈ (Cls.device.make plainEnv [("device_sku", .str "A"), ("sector_params", s)]).toOption,
    ∃ o ∈ (Cls.los.make plainEnv [("device_list", .list [a])]).toOption,
    ∃ o' ∈ (Cls.los.make plainEnv [("device_list", .list [b])]).toOption,
      (o.eq o').toOption = some true ∧ (o'.eq o).toOption = some false := by
  decide +kernel

end Verif
