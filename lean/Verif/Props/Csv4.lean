import Verif.Props.Csv3
import Verif.Props.InputLinks2

/-! # C144: link files -/

namespace Verif
namespace Csv

theorem splitArrow_cons (c : Char) (r : List Char) (h : ∀ q, c = '-' → r = '-' :: '>' :: q → False) :
    splitArrow (c :: r) = consHead c (splitArrow r) := by
  rw [splitArrow]
  exact h

theorem splitArrow_ne (l : List Char) : splitArrow l ≠ [] := by
  induction l using splitArrow.induct with
  | case1 => simp [splitArrow]
  | case2 r _ => simp [splitArrow]
  | case3 c r h ih =>
    rw [splitArrow]
    · cases splitArrow r <;> simp [consHead]
    · exact h

/-- The pieces put together again. -/
theorem splitArrow_one (l a : List Char) (h : splitArrow l = [a]) : l = a ∧ ¬ ['-', '-', '>'] <:+: l := by
  induction l using splitArrow.induct generalizing a with
  | case1 =>
    simp only [splitArrow, List.cons.injEq, and_true] at h
    exact ⟨h, by simp⟩
  | case2 r _ =>
    simp only [splitArrow, List.cons.injEq] at h
    exact absurd h.2 (splitArrow_ne r)
  | case3 c r hc ih =>
    rw [splitArrow_cons _ _ hc] at h
    cases hs : splitArrow r with
    | nil => exact absurd hs (splitArrow_ne r)
    | cons p ps =>
      rw [hs, consHead, List.cons.injEq] at h
      obtain ⟨rfl, rfl⟩ := h
      obtain ⟨rfl, hn⟩ := ih p hs
      refine ⟨rfl, fun hi => ?_⟩
      rcases List.infix_cons_iff.1 hi with ⟨q, hq⟩ | hi
      · simp only [List.cons_append, List.nil_append, List.cons.injEq] at hq
        exact hc q hq.1.symm hq.2.symm
      · exact hn hi

theorem splitArrow_of_none (l : List Char) (h : ¬ ['-', '-', '>'] <:+: l) : splitArrow l = [l] := by
  induction l using splitArrow.induct with
  | case1 => rfl
  | case2 r _ => exact absurd ⟨[], r, rfl⟩ h
  | case3 c r hc ih =>
    rw [splitArrow_cons _ _ hc, ih fun hi => h (List.infix_cons_iff.2 (.inr hi))]
    rfl

theorem splitArrow_two (l a b : List Char) : splitArrow l = [a, b] ↔
    l = a ++ ['-', '-', '>'] ++ b ∧ ¬ ['-', '-', '>'] <:+: a ∧ ¬ ['-', '-', '>'] <:+: b := by
  constructor
  · intro h
    induction l using splitArrow.induct generalizing a with
    | case1 => simp [splitArrow] at h
    | case2 r _ =>
      simp only [splitArrow, List.cons.injEq] at h
      obtain ⟨rfl, h⟩ := h
      obtain ⟨rfl, hn⟩ := splitArrow_one r b h
      exact ⟨rfl, by simp, hn⟩
    | case3 c r hc ih =>
      rw [splitArrow_cons _ _ hc] at h
      cases hs : splitArrow r with
      | nil => exact absurd hs (splitArrow_ne r)
      | cons p ps =>
        rw [hs, consHead, List.cons.injEq] at h
        obtain ⟨rfl, rfl⟩ := h
        obtain ⟨rfl, h1, h2⟩ := ih p hs
        refine ⟨rfl, fun hi => ?_, h2⟩
        rcases List.infix_cons_iff.1 hi with ⟨q, hq⟩ | hi
        · simp only [List.cons_append, List.nil_append, List.cons.injEq] at hq
          obtain ⟨e1, e2⟩ := hq
          refine hc (q ++ ['-', '-', '>'] ++ b) e1.symm ?_
          rw [← e2]
          rfl
        · exact h1 hi
  · rintro ⟨rfl, h1, h2⟩
    induction a with
    | nil => simp [splitArrow, splitArrow_of_none b h2]
    | cons c a ih =>
      have ha : ¬ ['-', '-', '>'] <:+: a := fun hi => h1 (List.infix_cons_iff.2 (.inr hi))
      have := ih ha
      rw [List.append_assoc, List.cons_append, splitArrow]
      · rw [← List.append_assoc, this]; rfl
      · intro r e1 e2
        subst e1
        rcases a with - | ⟨x, - | ⟨y, a⟩⟩
        · simp at e2
        · simp at e2
        · simp only [List.cons_append, List.cons.injEq] at e2
          obtain ⟨rfl, rfl, -⟩ := e2
          exact h1 ⟨[], a, rfl⟩

theorem lnames_eq (k : LCol) : k.names = laccepted k := by cases k <;> rfl

theorem lplace_iff {lib : Lib} {t : Table} (S : LSingle lib t) (k : LCol) :
    (∀ i, lplace lib t k = some i ↔ LAt lib t k i) ∧ (lplace lib t k = none ↔ ∀ i, ¬ LAt lib t k i) := by
  have h1 : ∀ i, lplace lib t k = some i → LAt lib t k i := by
    intro i h
    unfold lplace at h
    rw [List.findIdx?_eq_some_iff_getElem] at h
    obtain ⟨hi, hp, -⟩ := h
    refine ⟨t.header[i], List.getElem?_eq_getElem hi, ?_⟩
    rw [← lnames_eq]
    simpa using hp
  have h2 : lplace lib t k = none → ∀ i, ¬ LAt lib t k i := by
    rintro h i ⟨g, hg, hk⟩
    unfold lplace at h
    rw [List.findIdx?_eq_none_iff] at h
    have := h g (List.mem_of_getElem? hg)
    rw [← lnames_eq] at hk
    simp [hk] at this
  refine ⟨fun i => ⟨h1 i, fun h => ?_⟩, h2, fun h => ?_⟩
  · cases hp : lplace lib t k with
    | none => exact absurd h (h2 hp i)
    | some j => rw [S k i j h (h1 j hp)]
  · cases hp : lplace lib t k with
    | none => rfl
    | some j => exact absurd (h1 j hp) (h j)

/-- If no attribute has two columns, the check for repeated columns passes. -/
theorem lmatched_single {lib : Lib} {t : Table} (S : LSingle lib t) :
    ¬ (LCol.all.any fun k => decide (1 < (lmatched lib t k).length)) = true := by
  rw [List.any_eq_true]
  rintro ⟨k, -, h⟩
  have nd : (lmatched lib t k).Nodup := by
    unfold lmatched
    exact List.Nodup.filter _ (by cases k <;> decide)
  have get : ∀ n ∈ lmatched lib t k, ∃ i g, LAt lib t k i ∧ t.header[i]? = some g ∧ lib.norm g = n := by
    intro n hn
    unfold lmatched at hn
    rw [List.mem_filter, lnames_eq] at hn
    obtain ⟨h1, h2⟩ := hn
    have h2 := of_decide_eq_true h2
    obtain ⟨g, h3, rfl⟩ := List.mem_map.1 h2
    obtain ⟨i, hi⟩ := List.mem_iff_getElem?.1 h3
    exact ⟨i, g, ⟨g, hi, h1⟩, hi, rfl⟩
  have h := of_decide_eq_true h
  cases hm : lmatched lib t k with
  | nil => rw [hm] at h; simp at h
  | cons x xs =>
    cases xs with
    | nil => rw [hm] at h; simp at h
    | cons y ys =>
      rw [hm] at nd
      obtain ⟨i, g, a1, a2, a3⟩ := get x (by rw [hm]; simp)
      obtain ⟨j, g', b1, b2, b3⟩ := get y (by rw [hm]; simp)
      rw [S k i j a1 b1, b2] at a2
      cases a2
      rw [a3] at b3
      rw [b3] at nd
      simp at nd

theorem shown_iff (lib : Lib) (t : Table) (i : Nat) (r : List String) (s : String) :
    Shown lib t i r s ↔ s = ltext lib t i r := by
  unfold Shown ltext
  by_cases h : Numbers lib t i
  · rw [if_pos ((numbers_iff lib t i).2 h)]
    exact ⟨fun h' => h'.1 h, fun h' => ⟨fun _ => h', fun h'' => absurd h h''⟩⟩
  · rw [if_neg (fun h' => h ((numbers_iff lib t i).1 h'))]
    exact ⟨fun h' => h'.2 h, fun h' => ⟨fun h'' => absurd h'' h, fun _ => h'⟩⟩

theorem both_iff (lib : Lib) (t : Table) (i j : Nat) (r : List String) (p : String × String) :
    Both lib t i j r p ↔ p = (lib.strip (ltext lib t i r), lib.strip (ltext lib t j r)) := by
  unfold Both
  simp only [shown_iff]
  constructor
  · rintro ⟨a, b, rfl, rfl, h⟩; exact h
  · intro h; exact ⟨_, _, rfl, rfl, h⟩

theorem forall₂_map_eq {α β : Type} (f : α → β) (as : List α) (bs : List β) :
    List.Forall₂ (fun a b => b = f a) as bs ↔ bs = as.map f := by
  induction as generalizing bs with
  | nil => cases bs <;> simp
  | cons a as ih => cases bs with
    | nil => simp
    | cons b bs => rw [List.forall₂_cons, ih, List.map_cons, List.cons.injEq]

/-- **C144.** A link file is read exactly as the list of links it says, if none occurs twice. -/
theorem C144_links_partial (lib : Lib) (t : Table) (S : LSingle lib t) (L : List (String × String)) :
    loadLinks lib t = .ok L ↔ SaysLinks lib t L ∧ L.Nodup := by
  have single := lmatched_single S
  have arrow : ∀ i, (LinkRows.arrow (t.rows.map fun r => (splitArrow (ltext lib t i r).toList).map String.ofList)).listed
      lib.strip = some L ↔ List.Forall₂ (fun r p => ∃ s a b, Shown lib t i r s ∧ OneArrow s a b ∧
      p = (lib.strip a, lib.strip b)) t.rows L := by
    intro i
    unfold LinkRows.listed LinkRows.cells
    dsimp only
    generalize t.rows = rs
    induction rs generalizing L with
    | nil => cases L <;> simp
    | cons r rs ih =>
      rw [List.map_cons, List.mapM_cons]
      have one : ∀ x, twoNames ((splitArrow (ltext lib t i r).toList).map String.ofList) = some x ↔
          OneArrow (ltext lib t i r) x.1 x.2 := by
        rintro ⟨a, b⟩
        unfold OneArrow
        rw [← splitArrow_two]
        constructor
        · intro h
          rcases hs : splitArrow (ltext lib t i r).toList with - | ⟨p, - | ⟨q, - | ⟨_, _⟩⟩⟩
          · rw [hs] at h; cases h
          · rw [hs] at h; cases h
          · rw [hs] at h
            simp only [List.map_cons, List.map_nil, twoNames, Option.some.injEq, Prod.mk.injEq] at h
            obtain ⟨rfl, rfl⟩ := h
            simp
          · rw [hs] at h; cases h
        · intro h
          rw [h]
          simp [twoNames]
      cases hx : twoNames ((splitArrow (ltext lib t i r).toList).map String.ofList) with
      | none =>
        constructor
        · intro h; cases h
        · intro h
          cases h with
          | cons h _ =>
            obtain ⟨s, a, b, h1, h2, -⟩ := h
            rw [(shown_iff lib t i r s).1 h1] at h2
            have := (one (a, b)).2 h2
            rw [hx] at this
            cases this
      | some x =>
        have hx' := (one x).1 hx
        cases hm : (rs.map fun r => (splitArrow (ltext lib t i r).toList).map String.ofList).mapM twoNames with
        | none =>
          rw [hm] at ih
          constructor
          · intro h; cases h
          · intro h
            cases h with
            | cons _ h => exact absurd ((ih _).2 h) (by simp)
        | some ys =>
          rw [hm] at ih
          constructor
          · intro h
            cases h
            exact .cons ⟨_, x.1, x.2, (shown_iff lib t i r _).2 rfl, hx', rfl⟩ ((ih _).1 rfl)
          · intro h
            cases h with
            | @cons _ p _ L h h' =>
              obtain ⟨s, a, b, h1, h2, rfl⟩ := h
              rw [(shown_iff lib t i r s).1 h1] at h2
              have h3 := (one (a, b)).2 h2
              rw [hx] at h3
              cases h3
              have := (ih _).2 h'
              simp only [Option.map_some, Option.some.injEq] at this
              subst this
              rfl
  have done : ∀ R, linkRows lib t = .ok R → (R.listed lib.strip = some L ↔ SaysLinks lib t L) →
      (loadLinks lib t = .ok L ↔ SaysLinks lib t L ∧ L.Nodup) := by
    intro R hR h
    unfold loadLinks
    rw [hR]
    dsimp only
    rw [(C30_link_file lib.strip R).1 L, h]
  have both : ∀ i j, List.Forall₂ (Both lib t i j) t.rows L ↔
      L = t.rows.map fun r => (lib.strip (ltext lib t i r), lib.strip (ltext lib t j r)) := by
    intro i j
    have e : Both lib t i j = fun r p => p = (lib.strip (ltext lib t i r), lib.strip (ltext lib t j r)) := by
      funext r p
      exact propext (both_iff lib t i j r p)
    rw [e]
    exact forall₂_map_eq _ _ _
  have both' : ∀ i j ps, List.Forall₂ (Both lib t i j) t.rows ps ↔
      ps = t.rows.map fun r => (lib.strip (ltext lib t i r), lib.strip (ltext lib t j r)) := by
    intro i j ps
    have e : Both lib t i j = fun r p => p = (lib.strip (ltext lib t i r), lib.strip (ltext lib t j r)) := by
      funext r p
      exact propext (both_iff lib t i j r p)
    rw [e]
    exact forall₂_map_eq _ _ _
  obtain ⟨p1, p2⟩ := lplace_iff S .pair
  obtain ⟨q1, q2⟩ := lplace_iff S .site1
  obtain ⟨r1, r2⟩ := lplace_iff S .site2
  obtain ⟨s1, s2⟩ := lplace_iff S .tx
  obtain ⟨u1, u2⟩ := lplace_iff S .rx
  cases hp : lplace lib t .pair with
  | some i =>
    have hi := (p1 i).1 hp
    refine done _ (by unfold linkRows; rw [if_neg single, hp]) ?_
    rw [arrow i]
    constructor
    · intro h; exact .inl ⟨i, hi, h⟩
    · rintro (⟨j, hj, h⟩ | ⟨h, -⟩ | ⟨h, -⟩)
      · rwa [S .pair j i hj hi] at h
      · exact absurd hi (h i)
      · exact absurd hi (h i)
  | none =>
    have np := p2.1 hp
    by_cases hs : (∃ i, lplace lib t .site1 = some i) ∧ ∃ j, lplace lib t .site2 = some j
    · obtain ⟨⟨i, hi⟩, j, hj⟩ := hs
      have ai := (q1 i).1 hi
      have aj := (r1 j).1 hj
      refine done _ (by unfold linkRows; rw [if_neg single, hp]; dsimp only; rw [hi, hj]) ?_
      unfold LinkRows.listed LinkRows.cells
      rw [Option.map_some, Option.some.injEq]
      have e : (List.map (fun r : String × String => (lib.strip r.1, lib.strip r.2))
          ((t.rows.map fun r => (ltext lib t i r, ltext lib t j r)).flatMap fun r => [(r.1, r.2), (r.2, r.1)])) =
          (t.rows.map fun r => (lib.strip (ltext lib t i r), lib.strip (ltext lib t j r))).flatMap
            fun p => [p, (p.2, p.1)] := by
        generalize t.rows = rs
        induction rs with
        | nil => rfl
        | cons r rs ih =>
          simp only [List.map_cons, List.flatMap_cons, List.map_append, ih]
          rfl
      rw [e]
      constructor
      · rintro rfl; exact .inr (.inl ⟨np, i, j, ai, aj, _, (both' i j _).2 rfl, rfl⟩)
      · rintro (⟨k, hk, -⟩ | ⟨-, i', j', hi', hj', ps, h1, rfl⟩ | ⟨-, h, -⟩)
        · exact absurd hk (np k)
        · rw [S .site1 i' i hi' ai, S .site2 j' j hj' aj] at h1
          rw [(both' i j ps).1 h1]
        · exact absurd aj (h i j ai)
    · have ns : ∀ i j, LAt lib t .site1 i → ¬ LAt lib t .site2 j :=
        fun i j hi hj => hs ⟨⟨i, (q1 i).2 hi⟩, j, (r1 j).2 hj⟩
      have skip : linkRows lib t = (match lplace lib t .tx, lplace lib t .rx with
          | some i, some j => .ok (.directed (t.rows.map fun r => (ltext lib t i r, ltext lib t j r)))
          | _, _ => .error .data) := by
        unfold linkRows
        rw [if_neg single, hp]
        dsimp only
        cases h1 : lplace lib t .site1 with
        | none => rfl
        | some i =>
          cases h2 : lplace lib t .site2 with
          | none => rfl
          | some j => exact absurd ⟨⟨i, h1⟩, j, h2⟩ hs
      by_cases hd : (∃ i, lplace lib t .tx = some i) ∧ ∃ j, lplace lib t .rx = some j
      · obtain ⟨⟨i, hi⟩, j, hj⟩ := hd
        have ai := (s1 i).1 hi
        have aj := (u1 j).1 hj
        refine done _ (by rw [skip, hi, hj]) ?_
        unfold LinkRows.listed LinkRows.cells
        rw [Option.map_some, Option.some.injEq, List.map_map]
        constructor
        · intro h; exact .inr (.inr ⟨np, ns, i, j, ai, aj, (both i j).2 h.symm⟩)
        · rintro (⟨k, hk, -⟩ | ⟨-, i', j', hi', hj', -⟩ | ⟨-, -, i', j', hi', hj', h⟩)
          · exact absurd hk (np k)
          · exact absurd hj' (ns i' j' hi')
          · rw [S .tx i' i hi' ai, S .rx j' j hj' aj] at h
            exact ((both i j).1 h).symm
      · have : linkRows lib t = .error .data := by
          rw [skip]
          cases h1 : lplace lib t .tx with
          | none => rfl
          | some i =>
            cases h2 : lplace lib t .rx with
            | none => rfl
            | some j => exact absurd ⟨⟨i, h1⟩, j, h2⟩ hd
        unfold loadLinks
        rw [this]
        constructor
        · intro h; cases h
        · rintro ⟨⟨k, hk, -⟩ | ⟨-, i', j', hi', hj', -⟩ | ⟨-, -, i', j', hi', hj', -⟩, -⟩
          · exact absurd hk (np k)
          · exact absurd hj' (ns i' j' hi')
          · exact absurd ⟨⟨i', (s1 i').2 hi'⟩, j', (u1 j').2 hj'⟩ hd

/-- C144: the three kinds of link files. -/
example : loadLinks demoLib ⟨["Sites"], [["a-->b"], ["b-->a"]]⟩ = .ok [("a", "b"), ("b", "a")] ∧
    loadLinks demoLib ⟨["site1", "Site2"], [["a", "b"]]⟩ = .ok [("a", "b"), ("b", "a")] ∧
    loadLinks demoLib ⟨["from_site", "to_site", "site1"], [["a", "b", "c"]]⟩ = .ok [("a", "b")] ∧
    loadLinks demoLib ⟨["from_site", "site1"], [["a", "b"]]⟩ = .error .data ∧
    loadLinks demoLib ⟨["sites"], [["a-->b-->c"]]⟩ = .error .data := by
  decide +kernel

example : LSingle demoLib ⟨["Sites"], [["a-->b"], ["b-->a"]]⟩ := by
  rintro k i j ⟨h, h1, -⟩ ⟨h', h3, -⟩
  have b1 : i < 1 := (List.getElem?_eq_some_iff.1 h1).1
  have b2 : j < 1 := (List.getElem?_eq_some_iff.1 h3).1
  omega

/-- **C144 violated.** Sites named `007` and `10` in both files do not match: in a column of numbers the name is read as
`7`, in a column with arrows as `007`. -/
theorem C144_numbers_violation :
    (loadSites demoLib ⟨["name", "type", "lat", "lon"], [["007", "DN", "10", "20"], ["10", "DN", "20", "10"]]⟩ false).toOption.map
      (·.map (·.name)) = some [some "7", some "10"] ∧
    loadLinks demoLib ⟨["sites"], [["007-->10"]]⟩ = .ok [("007", "10")] := by
  decide +kernel

end Csv
end Verif
