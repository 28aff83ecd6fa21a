import Mathlib.Data.List.TakeWhile
import Verif.Props.ConfigDict
import Verif.Spec.ConfigRange

/-!
# What the constructors of configuration objects accept

C114.
-/

namespace Verif

namespace CfgDict

variable {env : CfgEnv}

theorem need_iff {e : Err} {b : Bool} : need e b = .ok () ↔ b = true := by
  unfold need
  split
  · simp [*]
  · simp [*]

theorem toNum_bind {x : PyVal} {f : ℚ → Except Err Unit} : x.toNum.bind f = .ok () ↔ ∃ q, x = .num q ∧ f q = .ok () := by
  cases x <;> simp [PyVal.toNum, Except.bind]

theorem one_iff {n : String} {p : ℚ → Bool} {v : String → PyVal} :
    (one n p).test ((one n p).names.map v) = .ok () ↔ NumIn (v n) fun q => p q = true := by
  simp only [one, List.map_cons, List.map_nil]
  rw [toNum_bind]
  simp only [need_iff]
  rfl

theorem onePlain_iff {n : String} {p : ℚ → Bool} {v : String → PyVal} :
    (onePlain n p).test ((onePlain n p).names.map v) = .ok () ↔ NumIn (v n) fun q => p q = true := by
  simp only [onePlain, List.map_cons, List.map_nil]
  rw [toNum_bind]
  simp only [need_iff]
  rfl

theorem optional_iff {n : String} {p : ℚ → Bool} {v : String → PyVal} :
    (optional n p).test ((optional n p).names.map v) = .ok () ↔ OptIn (v n) fun q => p q = true := by
  simp only [optional, List.map_cons, List.map_nil, OptIn, NumIn]
  cases v n <;> simp [PyVal.toNum, Except.bind, need_iff]

theorem optional2_iff {m n : String} {p : ℚ → ℚ → Bool} {v : String → PyVal} :
    (optional2 m n p).test ((optional2 m n p).names.map v) = .ok () ↔
      OptIn (v m) fun q => NumIn (v n) fun r => p q r = true := by
  simp only [optional2, List.map_cons, List.map_nil, OptIn, NumIn]
  cases v m <;> cases v n <;> simp [PyVal.toNum, Except.bind, need_iff]

theorem sector_range {v : String → PyVal} : runChecks v (Cls.sector.checks env) = .ok () ↔ SectorRange v := by
  rw [runChecks_iff]
  simp only [Cls.checks, List.forall_mem_cons, one_iff, optional_iff, optional2_iff, decide_eq_true_eq, Bool.decide_and,
    Bool.and_eq_true]
  constructor
  · rintro ⟨h1, h2, h3, h4, h5, h6, h7, h8, h9, h10, h11, h12, h13, h14, -⟩
    exact ⟨h1, h2, h3, h4, h5, h6, h7, h8, h9, h10, h11, h12, h13, h14⟩
  · rintro ⟨h1, h2, h3, h4, h5, h6, h7, h8, h9, h10, h11, h12, h13, h14⟩
    exact ⟨h1, h2, h3, h4, h5, h6, h7, h8, h9, h10, h11, h12, h13, h14, by simp⟩

theorem los_range {v : String → PyVal} : runChecks v (Cls.los.checks env) = .ok () ↔ LosRange v := by
  rw [runChecks_iff]
  simp only [Cls.checks, List.forall_mem_cons, one_iff, optional_iff, optional2_iff, decide_eq_true_eq, Bool.decide_and,
    Bool.and_eq_true]
  constructor
  · rintro ⟨h1, h2, h3, h4, h5, h6, h7, h8, h9, h10, h11, -⟩
    exact ⟨h1, h2, h3, h4, h5, h6, h7, h8, h9, h10, h11⟩
  · rintro ⟨h1, h2, h3, h4, h5, h6, h7, h8, h9, h10, h11⟩
    exact ⟨h1, h2, h3, h4, h5, h6, h7, h8, h9, h10, h11, by simp⟩

theorem extOf_spec (s : String) :
    '.' ∉ (extOf s).toList ∧ (s = extOf s ∨ ∃ p, s = p ++ "." ++ extOf s) := by
  have key := List.takeWhile_append_dropWhile (p := fun c => decide (c ≠ '.')) (l := s.toList.reverse)
  constructor
  · unfold extOf
    rw [String.toList_ofList, List.mem_reverse]
    intro h
    have := List.mem_takeWhile_imp h
    simp at this
  · cases hd : s.toList.reverse.dropWhile (fun c => decide (c ≠ '.')) with
    | nil =>
      left
      rw [hd, List.append_nil] at key
      unfold extOf
      rw [key, List.reverse_reverse, String.ofList_toList]
    | cons c cs =>
      right
      have hc : c = '.' := by
        have := List.head_dropWhile_not (fun c => decide (c ≠ '.')) (l := s.toList.reverse) (by rw [hd]; simp)
        rw [decide_eq_false_iff_not, not_not] at this
        rw [← this]
        simp only [hd, List.head_cons]
      subst hc
      refine ⟨String.ofList cs.reverse, ?_⟩
      apply String.toList_injective
      rw [hd] at key
      have := congrArg List.reverse key
      rw [List.reverse_reverse] at this
      rw [← this]
      simp [extOf]

theorem extOf_unique {s e : String} (h : '.' ∉ e.toList) (hs : s = e ∨ ∃ p, s = p ++ "." ++ e) : extOf s = e := by
  have all : ∀ c ∈ e.toList.reverse, decide (c ≠ '.') = true := by
    intro c hc
    rw [List.mem_reverse] at hc
    rw [decide_eq_true_eq]
    rintro rfl
    exact h hc
  apply String.toList_injective
  rcases hs with rfl | ⟨p, rfl⟩
  · unfold extOf
    rw [String.toList_ofList, List.takeWhile_eq_self_iff.2 all, List.reverse_reverse]
  · unfold extOf
    rw [String.toList_ofList, String.toList_append, String.toList_append, List.reverse_append,
      List.takeWhile_append_of_pos all]
    simp

theorem extOk_iff {exts : List String} {x : PyVal} : extOk env exts x = .ok () ↔ HasExt env exts x := by
  cases x with
  | str s =>
    simp only [extOk, need_iff, HasExt, List.contains_iff_mem]
    constructor
    · intro h
      exact ⟨s, extOf s, rfl, (extOf_spec s).1, (extOf_spec s).2, h⟩
    · rintro ⟨s', e, h1, h2, h3, h4⟩
      cases h1
      rwa [extOf_unique h2 h3]
  | _ => simp [extOk, HasExt]

theorem extOpt_iff {n : String} {exts : List String} {v : String → PyVal} :
    (extOpt env n exts).test ((extOpt env n exts).names.map v) = .ok () ↔ OptExt env exts (v n) := by
  simp only [extOpt, List.map_cons, List.map_nil, OptExt]
  cases h : v n <;> simp [extOk_iff]

theorem dsm_iff {xs : List PyVal} : dsmOk env xs = .ok () ↔ ∀ x ∈ xs, OptExt env ["tif", "tiff"] x := by
  induction xs with
  | nil => simp [dsmOk]
  | cons x xs ih =>
    rw [List.forall_mem_cons]
    have other : ((extOk env ["tif", "tiff"] x).bind fun _ => dsmOk env xs) = .ok () ↔
        HasExt env ["tif", "tiff"] x ∧ ∀ x ∈ xs, OptExt env ["tif", "tiff"] x := by
      rw [← ih, ← extOk_iff]
      cases extOk env ["tif", "tiff"] x <;> simp [Except.bind]
    cases x with
    | none => simp [dsmOk, ih, OptExt]
    | _ =>
      simp only [dsmOk]
      rw [other]
      simp [OptExt]

theorem opt_range {v : String → PyVal} : runChecks v (Cls.opt.checks env) = .ok () ↔ OptRange env v := by
  rw [runChecks_iff]
  simp only [Cls.checks, List.forall_mem_cons, one_iff, onePlain_iff, optional_iff, optional2_iff, extOpt_iff,
    decide_eq_true_eq, Bool.decide_and, Bool.and_eq_true, need_iff, List.map_cons, List.map_nil, List.any_cons, List.any_nil,
    Bool.or_false, Bool.or_eq_true]
  have c1 : (if (v "enable_uniform_demand").truthy = true then
      (v "demand_spacing").toNum.bind fun q => need .config (decide (0 < q)) else .ok ()) = .ok () ↔
      ((v "enable_uniform_demand").truthy = true → NumIn (v "demand_spacing") (0 < ·)) := by
    split
    · rename_i h
      rw [toNum_bind]
      simp only [need_iff, decide_eq_true_eq, h, true_imp_iff]
      rfl
    · rename_i h
      simp [h]
  have c2 : (if ((v "enable_uniform_demand").truthy = true ∨ (v "enable_manual_demand").truthy = true) then
      (v "demand_connection_radius").toNum.bind fun q => need .config (decide (0 < q)) else .ok ()) = .ok () ↔
      ((v "enable_uniform_demand").truthy = true ∨ (v "enable_manual_demand").truthy = true →
        NumIn (v "demand_connection_radius") (0 < ·)) := by
    split
    · rename_i h
      rw [toNum_bind]
      simp only [need_iff, decide_eq_true_eq, h, true_imp_iff]
      rfl
    · rename_i h
      simp [h]
  rw [c1, c2]
  constructor
  · rintro ⟨h1, h2, h3, h4, h5, h6, h7, h8, h9, h10, h11, h12, h13, h14, h15, h16, h17, h18, h19, h20, h21, h22, h23, h24,
      h25, h26, h27, -⟩
    refine ⟨h1, h2, h3, h4, h5, h6, h7, h8, h9, h10, h11, h12, ?_, h14, h15, h16, h17, h18, h19, h20, h21, h22, h23, h24,
      h25, h26, h27⟩
    rcases h13 with h13 | h13
    · obtain ⟨q, hq, -⟩ := h12
      rw [hq] at h13
      cases h13
    · exact h13
  · rintro ⟨h1, h2, h3, h4, h5, h6, h7, h8, h9, h10, h11, h12, h13, h14, h15, h16, h17, h18, h19, h20, h21, h22, h23, h24,
      h25, h26, h27⟩
    exact ⟨h1, h2, h3, h4, h5, h6, h7, h8, h9, h10, h11, h12, .inr h13, h14, h15, h16, h17, h18, h19, h20, h21, h22, h23,
      h24, h25, h26, h27, by simp⟩

theorem gis_range {v : String → PyVal} : runChecks v (Cls.gis.checks env) = .ok () ↔ GisRange env v := by
  rw [runChecks_iff]
  simp only [Cls.checks, List.forall_mem_cons, extOpt_iff, extOk_iff, List.map_cons, List.map_nil]
  have c1 : (fun vs => match vs with
        | [PyVal.none] => Except.ok ()
        | [.list xs] => dsmOk env xs
        | [_] => Except.error Err.valueError
        | _ => Except.ok ()) [v "dsm_file_paths"] = .ok () ↔
      (v "dsm_file_paths" = .none ∨ ∃ xs, v "dsm_file_paths" = .list xs ∧ ∀ x ∈ xs, OptExt env ["tif", "tiff"] x) := by
    cases v "dsm_file_paths" <;> simp [dsm_iff]
  have c2 : (fun vs => match vs with
        | [PyVal.none, _] => Except.ok ()
        | [_, PyVal.none] => Except.ok ()
        | [_, _] => Except.error Err.config
        | _ => Except.ok ()) [v "building_outline_file_path", v "base_topology_file_path"] = .ok () ↔
      (v "building_outline_file_path" = .none ∨ v "base_topology_file_path" = .none) := by
    cases v "building_outline_file_path" <;> cases v "base_topology_file_path" <;> simp
  constructor
  · rintro ⟨h1, h2, h3, h4, h5, h6, h7, h8, -⟩
    exact ⟨h1, h2, c1.mp h3, h4, h5, h6, h7, c2.mp h8⟩
  · rintro ⟨h1, h2, h3, h4, h5, h6, h7, h8⟩
    exact ⟨h1, h2, c1.mpr h3, h4, h5, h6, h7, c2.mpr h8, by simp⟩

theorem detection_range {v : String → PyVal} : runChecks v (Cls.detection.checks env) = .ok () ↔
    OptIn (v "max_corner_angle") fun q => 0 < q ∧ q < 180 := by
  rw [runChecks_iff]
  simp only [Cls.checks, List.forall_mem_cons, optional_iff, Bool.decide_and, Bool.and_eq_true, decide_eq_true_eq]
  simp

theorem bound_value (c : Cls) (kw : Dict String PyVal) : c.bound kw = c.value kw := by
  funext n
  unfold Cls.bound Cls.value
  cases Dict.get? kw n <;> rfl

theorem value_kind {c : Cls} {kw : Dict String PyVal} (g : GoodArgs env c kw) {p : Param} (hp : p ∈ c.params) :
    HasKind env p.kind (c.value kw p.name) := by
  unfold Cls.value
  cases hg : Dict.get? kw p.name with
  | some x => exact g.kinds p hp x hg
  | none =>
    rw [find_param c hp]
    cases hd : p.default with
    | none =>
      obtain ⟨x, hx⟩ := g.required p hp hd
      rw [hg] at hx
      cases hx
    | some d =>
      simp only [Option.bind_some, hd, Option.getD_some]
      exact default_kind c hp hd

theorem make_iff {c : Cls} {kw : Dict String PyVal} (g : GoodArgs env c kw) :
    (∃ o, c.make env kw = .ok o) ↔ runChecks (c.value kw) (c.checks env) = .ok () ∧ ∃ a, c.init env (c.value kw) = .ok a := by
  unfold Cls.make
  rw [if_neg, if_neg]
  · cases runChecks (c.value kw) (c.checks env) with
    | error e => simp [Except.bind]
    | ok u => cases c.init env (c.value kw) <;> simp [Except.bind, Except.map]
  · simp only [List.any_eq_true, not_exists, not_and]
    intro e he
    simpa using g.known e he
  · simp only [List.any_eq_true, not_exists, not_and]
    intro p hp h
    simp only [Bool.and_eq_true, Option.isNone_iff_eq_none, Bool.not_eq_true', Dict.has_eq_false_iff] at h
    obtain ⟨x, hx⟩ := g.required p hp h.1
    rw [h.2] at hx
    cases hx

theorem readData_iff {f : String → Except Err String} {x : PyVal} (hk : HasKind env .str? x) :
    (∃ y, readData f x = .ok y) ↔ ∀ s, x = .str s → (f s).toOption ≠ none := by
  cases hk with
  | strNone => simp [readData]
  | strSome s => cases hf : f s <;> simp [readData, hf, Except.map, Except.toOption]

theorem readRates_iff {v : String → PyVal} (hk : HasKind env .str? (v "mcs_map_file_path")) :
    (∃ y, readRates env v = .ok y) ↔ ∀ s, v "mcs_map_file_path" = .str s →
      (env.rates s (v "minimum_mcs_level") (v "minimum_tx_power") (v "maximum_tx_power")).toOption ≠ none := by
  unfold readRates
  generalize v "mcs_map_file_path" = x at hk
  cases hk with
  | strNone => simp
  | strSome s =>
    cases hf : env.rates s (v "minimum_mcs_level") (v "minimum_tx_power") (v "maximum_tx_power") <;>
      simp [hf, Except.map, Except.toOption]

theorem initSector_ok {v : String → PyVal} (h1 : HasKind env .str? (v "antenna_pattern_file_path"))
    (h2 : HasKind env .str? (v "scan_pattern_file_path")) (h3 : HasKind env .str? (v "mcs_map_file_path")) :
    (∃ a, initSector env v = .ok a) ↔ Readable env v := by
  have i1 := readData_iff (f := env.antenna) h1
  have i2 := readData_iff (f := env.scan) h2
  have i3 := readRates_iff h3
  constructor
  · rintro ⟨a, ha⟩
    unfold initSector at ha
    obtain ⟨x, e1, ha⟩ := bind_ok ha
    obtain ⟨y, e2, ha⟩ := bind_ok ha
    cases e3 : readRates env v with
    | error e => simp [e3, Except.map] at ha
    | ok z => exact ⟨i1.mp ⟨x, e1⟩, i2.mp ⟨y, e2⟩, i3.mp ⟨z, e3⟩⟩
  · rintro ⟨a1, a2, a3⟩
    obtain ⟨x, e1⟩ := i1.mpr a1
    obtain ⟨y, e2⟩ := i2.mpr a2
    obtain ⟨z, e3⟩ := i3.mpr a3
    exact ⟨sectorAttrs v x y z, by simp only [initSector, e1, e2, e3, Except.bind, Except.map]⟩

theorem isCn_iff {x : PyVal} : x.isCn = true ↔ x = .enum .device "CN" := by
  cases x <;> simp [PyVal.isCn]

theorem nodeCount_iff {typ x : PyVal} {n : ℚ} : nodeCount typ x = .ok (.num n) ↔
    1 ≤ n ∧ (typ = .enum .device "CN" → n = 1) ∧
      (x = .num n ∨ x = .none ∧ (typ ≠ .enum .device "CN" → n = 4)) := by
  rw [← isCn_iff]
  cases x with
  | none =>
    simp only [nodeCount, Except.ok.injEq, PyVal.num.injEq, reduceCtorEq, true_and, false_or, ne_eq]
    by_cases h : typ.isCn = true
    · have h' := isCn_iff.mp h
      rw [if_pos h]
      constructor
      · rintro rfl
        exact ⟨le_refl _, fun _ => rfl, fun n => absurd h' n⟩
      · rintro ⟨-, h1, -⟩
        exact (h1 h).symm
    · have h' : ¬ typ = .enum .device "CN" := fun e => h (isCn_iff.mpr e)
      rw [if_neg h]
      constructor
      · rintro rfl
        exact ⟨by decide +kernel, fun e => absurd e h, fun _ => rfl⟩
      · rintro ⟨-, -, h1⟩
        exact (h1 h').symm
  | num q =>
    simp only [nodeCount, PyVal.num.injEq, reduceCtorEq, false_and, or_false]
    split
    · rename_i h
      simp only [reduceCtorEq, false_iff, not_and]
      rintro h1 - rfl
      exact absurd h1 (not_le.mpr h)
    · rename_i h
      split
      · rename_i h2
        simp only [reduceCtorEq, false_iff, not_and]
        rintro - h3 rfl
        exact h2.1 (h3 h2.2)
      · rename_i h2
        simp only [Except.ok.injEq, PyVal.num.injEq]
        constructor
        · rintro rfl
          refine ⟨not_lt.mp h, fun h3 => ?_, rfl⟩
          by_contra h4
          exact h2 ⟨h4, h3⟩
        · exact fun h => h.2.2
  | _ => simp [nodeCount]

theorem number_iff {o : PyVal} {n : String} {q : ℚ} : o.number n = some q ↔ o.attr n = some (.num q) := by
  constructor
  · exact number_eq
  · intro h
    simp [PyVal.number, h]

theorem initDevice_ok {v : String → PyVal} (h1 : HasKind env .str (v "device_sku"))
    (h2 : HasKind env (.obj .sector) (v "sector_params")) : (∃ a, initDevice v = .ok a) ↔ DeviceRange v := by
  constructor
  · rintro ⟨a, ha⟩
    obtain ⟨sku, sa, n, r, k, m, e1, e2, e3, ⟨c, e4, e5⟩, e6, e7, e8, rfl, e9, e10⟩ := initDevice_iff ha
    obtain ⟨a1, a2, a3⟩ := nodeCount_iff.mp e6
    refine ⟨by simpa [e1] using e3, ⟨c, e4, not_lt.mp e5⟩, n, a1, a2, a3, r, k, ?_, ?_, e9⟩
    · rw [number_iff, e2]
      exact e7
    · rw [number_iff, e2]
      exact e8
  · rintro ⟨a1, ⟨c, a2, a3⟩, n, b1, b2, b3, r, k, c1, c2, c3⟩
    have hn := nodeCount_iff.mpr ⟨b1, b2, b3⟩
    obtain ⟨sv, ant, scan, rates, hs, -⟩ := sector_of h2
    rw [hs, number_iff] at c1 c2
    unfold initDevice
    generalize v "device_sku" = x at h1 a1
    cases h1 with
    | str sku =>
      have hne : sku ≠ "" := fun h => a1 (by rw [h])
      rw [hs, a2]
      simp only [PyVal.toNum, Except.bind, hn]
      rw [if_neg hne, if_neg (not_lt.mpr a3)]
      simp only [PyVal.attr] at c1 c2
      rw [c1, c2]
      simp only [if_pos c3]
      exact ⟨_, rfl⟩

theorem checkSkus_iff {ds : List (Dict String PyVal)} (hd : ∀ d ∈ ds, ∃ s, d.get? "device_sku" = some (.str s))
    (seen : List String) : checkSkus env seen ds = .ok () ↔
      (ds.map fun d => (PyVal.obj .device d).sku.map env.fold).Nodup ∧
      ∀ d ∈ ds, ∀ s, (PyVal.obj .device d).sku = some s → env.fold s ∉ seen := by
  induction ds generalizing seen with
  | nil => simp [checkSkus]
  | cons d ds ih =>
    obtain ⟨s, hs⟩ := hd d List.mem_cons_self
    have hsku : (PyVal.obj .device d).sku = some s := by simp [PyVal.sku, PyVal.attr, hs]
    simp only [checkSkus, hs, List.map_cons, List.nodup_cons, List.forall_mem_cons, hsku, Option.map_some,
      Option.some.injEq, forall_eq', List.contains_iff_mem]
    split
    · rename_i h
      simp [h]
    · rename_i h
      rw [ih (fun e he => hd e (List.mem_cons_of_mem _ he))]
      constructor
      · rintro ⟨h1, h2⟩
        refine ⟨⟨?_, h1⟩, h, fun e he t ht hm => h2 e he t ht (List.mem_cons_of_mem _ hm)⟩
        intro hm
        obtain ⟨e, he, h3⟩ := List.mem_map.mp hm
        rw [Option.map_eq_some_iff] at h3
        obtain ⟨t, ht, h4⟩ := h3
        exact h2 e he t ht (h4 ▸ List.mem_cons_self)
      · rintro ⟨⟨h1, h2⟩, -, h3⟩
        refine ⟨h2, fun e he t ht hm => ?_⟩
        rcases List.mem_cons.mp hm with h4 | h4
        · exact h1 (List.mem_map.mpr ⟨e, he, by rw [ht, Option.map_some, h4]⟩)
        · exact h3 e he t ht h4

theorem populate_any (v : String → PyVal) {xs : List PyVal} (hx : ∀ x ∈ xs, HasKind env (.obj .device) x) :
    ∃ ds ds', xs = ds.map (PyVal.obj .device) ∧ (∀ d ∈ ds, ∃ s, Dict.get? d "device_sku" = some (.str s)) ∧
      populateAll v ds = .ok ds' := by
  induction xs with
  | nil => exact ⟨[], [], rfl, by simp, rfl⟩
  | cons x xs ih =>
    obtain ⟨ds, ds', h1, h2, h3⟩ := ih fun y hy => hx y (List.mem_cons_of_mem _ hy)
    obtain ⟨T, sv, ant, scan, rates, rfl, D⟩ := device_of (hx x List.mem_cons_self)
    have hg : (plain T devNames).get? "sector_params" = some (.obj .sector (sectorAttrs sv ant scan rates)) := by
      rw [get?_plain T (by decide), D.sector]
    have hp : ∃ d', populateDevice v (plain T devNames) = .ok d' := by
      simp only [populateDevice, hg]
      exact ⟨_, rfl⟩
    obtain ⟨d', hd'⟩ := hp
    refine ⟨plain T devNames :: ds, d' :: ds', by rw [h1]; rfl, ?_, ?_⟩
    rotate_left
    · simp only [populateAll, hd', h3, Except.bind, Except.map]
    · intro d hd
      rcases List.mem_cons.mp hd with rfl | hd
      · obtain ⟨s, hs⟩ := D.sku
        exact ⟨s, by rw [get?_plain T (by decide), hs]⟩
      · exact h2 d hd

theorem acceptList_ok {v : String → PyVal} (hk : HasKind env .devices (v "device_list")) :
    (∃ y, acceptList env v = .ok y) ↔ DevicesOk env (v "device_list") := by
  generalize hl : v "device_list" = l at hk
  cases hk with
  | devices xs hx =>
    obtain ⟨ds, ds', rfl, h2, h3⟩ := populate_any v hx
    have hs := checkSkus_iff (env := env) h2 []
    simp only [acceptList, hl, DevicesOk, PyVal.list.injEq]
    by_cases c : (ds.map (PyVal.obj .device)).isEmpty = true
    · rw [if_pos c]
      simp only [reduceCtorEq, exists_false, false_iff, not_exists, not_and]
      rintro xs rfl h
      exact absurd (List.isEmpty_iff.mp c) h
    · rw [if_neg c, deviceAttrs_objs]
      have key : (∃ y, (checkSkus env [] ds).bind (fun _ => (populateAll v ds).map fun ds' =>
          PyVal.list (ds'.map (PyVal.obj .device))) = .ok y) ↔ checkSkus env [] ds = .ok () := by
        rw [h3]
        cases checkSkus env [] ds <;> simp [Except.bind, Except.map]
      refine key.trans (hs.trans ?_)
      constructor
      · rintro ⟨h4, -⟩
        refine ⟨_, rfl, fun h => c (List.isEmpty_iff.mpr h), ?_⟩
        rw [List.map_map]
        exact h4
      · rintro ⟨xs, rfl, -, h4⟩
        rw [List.map_map] at h4
        exact ⟨h4, by simp⟩

end CfgDict

open CfgDict in
/-- **C114.** With arguments of the annotated types, a constructor of a configuration object raises no exception exactly if the
values of all parameters, given or by default, are in the ranges of `Cls.accepts`. -/
theorem C114_accepts (env : CfgEnv) (c : Cls) (kw : Dict String PyVal) (g : GoodArgs env c kw) :
    (∃ o, c.make env kw = .ok o) ↔ c.accepts env (c.bound kw) := by
  rw [make_iff g, bound_value]
  cases c with
  | sector =>
    simp only [Cls.accepts, sector_range, Cls.init]
    rw [initSector_ok (value_kind g (p := pStr? "antenna_pattern_file_path") (by simp [Cls.params]))
      (value_kind g (p := pStr? "scan_pattern_file_path") (by simp [Cls.params]))
      (value_kind g (p := pStr? "mcs_map_file_path") (by simp [Cls.params]))]
  | device =>
    simp only [Cls.accepts, Cls.checks, runChecks, Cls.init, true_and]
    exact initDevice_ok (value_kind g (p := ⟨"device_sku", .str, none⟩) (by simp [Cls.params]))
      (value_kind g (p := ⟨"sector_params", .obj .sector, none⟩) (by simp [Cls.params]))
  | detection => simp [Cls.accepts, detection_range, Cls.init]
  | gis => simp [Cls.accepts, gis_range, Cls.init]
  | los =>
    simp only [Cls.accepts, los_range, Cls.init]
    rw [← acceptList_ok (value_kind g (p := ⟨"device_list", .devices, none⟩) (by simp [Cls.params]))]
    cases acceptList env (Cls.los.value kw) <;> simp [Except.map]
  | opt =>
    simp only [Cls.accepts, opt_range, Cls.init]
    rw [← acceptList_ok (value_kind g (p := ⟨"device_list", .devices, none⟩) (by simp [Cls.params]))]
    cases acceptList env (Cls.opt.value kw) <;> simp [Except.map]
  | system => simp [Cls.accepts, Cls.checks, runChecks, Cls.init]

/-! ## Examples -/

/-- An angle of 180 degrees is not accepted, one of 179 is. -/
example : (¬ ∃ o, Cls.detection.make plainEnv [("max_corner_angle", .num 180)] = .ok o) ∧
    ∃ o, Cls.detection.make plainEnv [("max_corner_angle", .num 179)] = .ok o := by
  have g : ∀ q, GoodArgs plainEnv .detection [("max_corner_angle", .num q)] := by
    intro q
    refine ⟨by simp [Cls.args, Cls.params, pNum, pNum?], ?_, kw_cons _ .num? (.numSome _) rfl (kw_nil _ _)⟩
    simp [Cls.params, pNum, pNum?]
  rw [C114_accepts _ _ _ (g 180), C114_accepts _ _ _ (g 179)]
  have b : ∀ q, Cls.detection.bound [("max_corner_angle", .num q)] "max_corner_angle" = .num q := fun _ => rfl
  simp only [Cls.accepts, b, OptIn, NumIn, reduceCtorEq, false_or, PyVal.num.injEq, exists_eq_left']
  norm_num

/-- `LOSParams` with one device and the least distance that is accepted. -/
example : ∃ a, devExample "A" [] = .ok a ∧
    GoodArgs plainEnv .los [("device_list", .list [a]), ("minimum_los_distance", .num 5)] ∧
    Cls.los.accepts plainEnv (Cls.los.bound [("device_list", .list [a]), ("minimum_los_distance", .num 5)]) := by
  have ok : ∃ a ∈ (devExample "A" []).toOption,
      (Cls.los.make plainEnv [("device_list", .list [a]), ("minimum_los_distance", .num 5)]).toOption.isSome = true := by
    decide +kernel
  obtain ⟨a, ha, hm⟩ := ok
  have ha' : devExample "A" [] = .ok a := by
    cases hd : devExample "A" [] with
    | error e => simp [hd, Except.toOption] at ha
    | ok b => simpa [hd, Except.toOption] using ha
  have g : GoodArgs plainEnv .los [("device_list", .list [a]), ("minimum_los_distance", .num 5)] := by
    refine ⟨by simp [Cls.args, Cls.params, pNum, pNum?], ?_,
      kw_cons _ .devices (.devices _ ?_) rfl (kw_cons _ .num (.num _) rfl (kw_nil _ _))⟩
    · intro p hp hd
      have : (Cls.los.params.all fun p => p.default.isSome || decide (p.name = "device_list")) = true := by decide
      have := List.all_eq_true.mp this p hp
      simp only [hd, Option.isSome_none, Bool.false_or, decide_eq_true_eq] at this
      exact ⟨.list [a], by rw [this]; rfl⟩
    · intro x hx
      rw [List.mem_singleton.mp hx]
      unfold devExample at ha'
      obtain ⟨s, h1, h2⟩ := bind_ok ha'
      have k1 : HasKind plainEnv (.obj .sector) s := .obj _ _ _ (kw_nil _ _) h1
      exact .obj _ _ _ (kw_cons _ .str (.str _) rfl (kw_cons _ (.obj .sector) k1 rfl (kw_nil _ _))) h2
  refine ⟨a, ha', g, (C114_accepts _ _ _ g).mp ?_⟩
  cases hl : Cls.los.make plainEnv [("device_list", .list [a]), ("minimum_los_distance", .num 5)] with
  | error e => simp [hl, Except.toOption] at hm
  | ok o => exact ⟨o, rfl⟩

end Verif
