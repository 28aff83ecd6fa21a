import Verif.Model.Create
import Verif.Spec.Create
import Verif.Props.SectorLimit
import Verif.Props.Orient
import Mathlib.Data.List.Dedup

/-! # Lemmas for the check of the sectors of a site -/

namespace Verif
open Spec

theorem abs_angleDelta {a b : ℚ} (ha : IsBearing a) (hb : IsBearing b) :
    |angleDelta a b| = bearingGap a b := by
  obtain ⟨a0, a1⟩ := ha
  obtain ⟨b0, b1⟩ := hb
  unfold angleDelta bearingGap
  dsimp only
  split
  · rw [abs_of_nonneg (a := a - b) (by linarith), abs_of_nonpos (by linarith), min_eq_right (by linarith)]
    ring
  · split
    · rw [abs_of_nonpos (a := a - b) (by linarith), abs_of_nonneg (by linarith), min_eq_right (by linarith)]
      ring
    · rw [min_eq_left]
      have : |a - b| ≤ 180 := abs_le.2 ⟨by linarith, by linarith⟩
      linarith

/-! ## Grouping by node -/

theorem groupSectors_ok (site : SiteId) : ∀ (xs : List Sector) (az : Dict Nat (List ℚ)) (pos : Dict Nat (List Nat)),
    (∃ d, groupSectors site xs az pos = .ok d) ↔
      (∀ x ∈ xs, x.site = site) ∧ xs.Pairwise (fun x y => x.node = y.node → x.pos ≠ y.pos) ∧
      ∀ x ∈ xs, x.pos ∉ (pos.get? x.node).getD [] := by
  intro xs
  induction xs with
  | nil => intro az pos; simp [groupSectors]
  | cons x xs ih =>
    intro az pos
    unfold groupSectors
    by_cases h1 : x.site = site
    · rw [if_neg (not_not.2 h1)]
      by_cases h2 : x.pos ∈ (pos.get? x.node).getD []
      · rw [if_pos (by simpa using h2)]
        simp only [reduceCtorEq, exists_false, false_iff]
        rintro ⟨_, _, h⟩
        exact h x List.mem_cons_self h2
      · rw [if_neg (by simpa using h2), ih]
        simp only [List.mem_cons, forall_eq_or_imp, List.pairwise_cons, h1, true_and, h2, not_false_eq_true]
        constructor
        · rintro ⟨a, b, c⟩
          refine ⟨a, ⟨?_, b⟩, ?_⟩
          · intro y hy e1 e2
            apply c y hy
            rw [Dict.get?_set, if_pos e1]
            simp [e2]
          · intro y hy hm
            apply c y hy
            rw [Dict.get?_set]
            split
            · next e => rw [← e] at hm; simp [hm]
            · exact hm
        · rintro ⟨a, ⟨b, b'⟩, c⟩
          refine ⟨a, b', ?_⟩
          intro y hy
          rw [Dict.get?_set]
          split
          · next e =>
            intro hm
            simp only [Option.getD_some, List.mem_cons] at hm
            rcases hm with hm | hm
            · exact b y hy e hm.symm
            · apply c y hy; rw [← e]; exact hm
          · exact c y hy
    · rw [if_pos h1]
      simp only [reduceCtorEq, exists_false, false_iff]
      rintro ⟨h, _⟩
      exact h1 (h x List.mem_cons_self)

theorem groupSectors_get (site : SiteId) : ∀ (xs : List Sector) (az : Dict Nat (List ℚ)) (pos : Dict Nat (List Nat))
    (d : Dict Nat (List ℚ)), groupSectors site xs az pos = .ok d → az.NodupKeys →
      d.NodupKeys ∧ ∀ n, d.get? n = if azimuthsOf xs n = [] then az.get? n
        else some ((az.get? n).getD [] ++ azimuthsOf xs n) := by
  intro xs
  induction xs with
  | nil =>
    intro az pos d h hn
    unfold groupSectors at h
    cases h
    exact ⟨hn, fun n => by simp [azimuthsOf]⟩
  | cons x xs ih =>
    intro az pos d h hn
    unfold groupSectors at h
    by_cases h1 : x.site = site
    · rw [if_neg (not_not.2 h1)] at h
      by_cases h2 : ((pos.get? x.node).getD []).contains x.pos = true
      · rw [if_pos h2] at h; cases h
      · rw [if_neg h2] at h
        obtain ⟨g1, g2⟩ := ih _ _ _ h (hn.set _ _)
        refine ⟨g1, fun n => ?_⟩
        rw [g2, Dict.get?_set]
        by_cases e : x.node = n
        · have : azimuthsOf (x :: xs) n = x.azimuth :: azimuthsOf xs n := by simp [azimuthsOf, e]
          rw [this, if_pos e, if_neg (List.cons_ne_nil _ _), e]
          split
          · next e' => rw [e']
          · simp
        · have : azimuthsOf (x :: xs) n = azimuthsOf xs n := by simp [azimuthsOf, e]
          rw [this, if_neg e]
    · rw [if_pos h1] at h; cases h

theorem azimuthsOf_ne_nil {xs : List Sector} {n : ℕ} : azimuthsOf xs n ≠ [] ↔ n ∈ nodesOf xs := by
  unfold azimuthsOf nodesOf
  rw [List.mem_dedup, List.mem_map, Ne, List.map_eq_nil_iff, List.filter_eq_nil_iff]
  push_neg
  simp

/-- The table of the sectors of a site. -/
theorem group_table {site : SiteId} {xs : List Sector} {d : Dict Nat (List ℚ)}
    (h : groupSectors site xs [] [] = .ok d) :
    d.length = (nodesOf xs).length ∧ ∀ n azs, (n, azs) ∈ d ↔ n ∈ nodesOf xs ∧ azs = azimuthsOf xs n := by
  obtain ⟨h1, h2⟩ := groupSectors_get site xs [] [] d h Dict.nodupKeys_nil
  have hm : ∀ n azs, (n, azs) ∈ d ↔ n ∈ nodesOf xs ∧ azs = azimuthsOf xs n := by
    intro n azs
    rw [Dict.mem_iff_get? h1, h2]
    by_cases e : azimuthsOf xs n = []
    · rw [if_pos e]
      simp only [Dict.get?_nil, reduceCtorEq, false_iff]
      rintro ⟨h, _⟩
      exact azimuthsOf_ne_nil.2 h e
    · rw [if_neg e]
      simp only [Dict.get?_nil, Option.getD_none, List.nil_append, Option.some.injEq]
      exact ⟨fun h => ⟨azimuthsOf_ne_nil.1 e, h.symm⟩, fun h => h.2.symm⟩
  refine ⟨?_, hm⟩
  have : d.keys.Perm (nodesOf xs) := by
    refine (List.perm_ext_iff_of_nodup h1 (List.nodup_dedup _)).2 ?_
    intro n
    constructor
    · intro hn
      obtain ⟨v, hv⟩ := (Dict.mem_keys_iff d n).1 hn
      exact ((hm n v).1 (Dict.mem_of_get? d hv)).1
    · intro hn
      exact (Dict.mem_keys_iff d n).2 ⟨_, (Dict.mem_iff_get? h1 _ _).1 ((hm n _).2 ⟨hn, rfl⟩)⟩
  have e := this.length_eq
  rw [← e]
  simp [Dict.keys]

/-- What the check of the sectors of a site demands. -/
theorem validate_iff (mean : List ℚ → ℚ) (r : Radio) (xs : List Sector) :
    validateSiteSectors mean r xs = none ↔ xs = [] ∨
      ((∀ x ∈ xs, ∀ y ∈ xs, x.site = y.site) ∧
       xs.Pairwise (fun x y => x.node = y.node → x.pos ≠ y.pos) ∧
       (nodesOf xs).length ≤ r.nodes ∧
       (∀ n ∈ nodesOf xs, (azimuthsOf xs n).length = r.perNode) ∧
       (∀ n ∈ nodesOf xs, r.perNode > 1 → evenlySpaced r.scan (aroundMean (mean (azimuthsOf xs n)) (azimuthsOf xs n)) = true) ∧
       ∀ n ∈ nodesOf xs, ∀ m ∈ nodesOf xs, n ≠ m →
         nodesApart r.scan (aroundMean (mean (azimuthsOf xs n)) (azimuthsOf xs n))
           (aroundMean (mean (azimuthsOf xs m)) (azimuthsOf xs m)) = true) := by
  cases xs with
  | nil => simp [validateSiteSectors]
  | cons x xs =>
    have hsite : (∀ y ∈ x :: xs, y.site = x.site) ↔ ∀ y ∈ x :: xs, ∀ z ∈ x :: xs, y.site = z.site :=
      ⟨fun h y hy z hz => (h y hy).trans (h z hz).symm, fun h y hy => h y hy x List.mem_cons_self⟩
    unfold validateSiteSectors
    dsimp only
    have hok := groupSectors_ok x.site (x :: xs) [] []
    cases hg : groupSectors x.site (x :: xs) [] [] with
    | error e =>
      simp only [reduceCtorEq, false_or, false_iff]
      rintro ⟨h1, h2, _⟩
      rw [hg] at hok
      obtain ⟨d, hd⟩ := hok.2 ⟨hsite.2 h1, h2, fun _ _ => by simp⟩
      cases hd
    | ok d =>
      obtain ⟨hl, hm⟩ := group_table hg
      obtain ⟨o1, o2, _⟩ := hok.1 ⟨d, hg⟩
      rw [← hsite]
      dsimp only
      by_cases c1 : d.length > r.nodes
      · rw [if_pos c1]
        simp only [reduceCtorEq, false_or, false_iff]
        rintro ⟨_, _, h, _⟩
        omega
      · rw [if_neg c1]
        have h2 : d.vals.all (fun azs => decide (azs.length = r.perNode)) = true ↔
            ∀ n ∈ nodesOf (x :: xs), (azimuthsOf (x :: xs) n).length = r.perNode := by
          rw [List.all_eq_true]
          constructor
          · intro h n hn
            have := h (azimuthsOf (x :: xs) n) (List.mem_map.2 ⟨_, (hm n _).2 ⟨hn, rfl⟩, rfl⟩)
            simpa using this
          · intro h azs ha
            obtain ⟨⟨n, a⟩, he, rfl⟩ := List.mem_map.1 ha
            obtain ⟨g1, g2⟩ := (hm n a).1 he
            dsimp only
            rw [g2]
            simpa using h n g1
        have h3 : (d.map (fun e => (e.1, aroundMean (mean e.2) e.2))).all (fun e => evenlySpaced r.scan e.2) = true ↔
            ∀ n ∈ nodesOf (x :: xs), evenlySpaced r.scan (aroundMean (mean (azimuthsOf (x :: xs) n)) (azimuthsOf (x :: xs) n)) = true := by
          rw [List.all_eq_true]
          constructor
          · intro h n hn
            exact h _ (List.mem_map.2 ⟨_, (hm n _).2 ⟨hn, rfl⟩, rfl⟩)
          · intro h e he0
            obtain ⟨⟨n, a⟩, he, rfl⟩ := List.mem_map.1 he0
            obtain ⟨g1, g2⟩ := (hm n a).1 he
            dsimp only
            rw [g2]
            exact h n g1
        have h4 : (d.map (fun e => (e.1, aroundMean (mean e.2) e.2))).all (fun e =>
            (d.map (fun e => (e.1, aroundMean (mean e.2) e.2))).all (fun f =>
              decide (e.1 = f.1) || nodesApart r.scan e.2 f.2)) = true ↔
            ∀ n ∈ nodesOf (x :: xs), ∀ m ∈ nodesOf (x :: xs), n ≠ m →
              nodesApart r.scan (aroundMean (mean (azimuthsOf (x :: xs) n)) (azimuthsOf (x :: xs) n))
                (aroundMean (mean (azimuthsOf (x :: xs) m)) (azimuthsOf (x :: xs) m)) = true := by
          rw [List.all_eq_true]
          constructor
          · intro h n hn m hm' hnm
            have h1 := h _ (List.mem_map.2 ⟨_, (hm n _).2 ⟨hn, rfl⟩, rfl⟩)
            have h2 := List.all_eq_true.1 h1 _ (List.mem_map.2 ⟨_, (hm m _).2 ⟨hm', rfl⟩, rfl⟩)
            simp only [Bool.or_eq_true, decide_eq_true_eq] at h2
            exact h2.resolve_left hnm
          · intro h e he0
            rw [List.all_eq_true]
            intro f hf0
            obtain ⟨⟨n, a⟩, he, rfl⟩ := List.mem_map.1 he0
            obtain ⟨⟨m, b⟩, hf, rfl⟩ := List.mem_map.1 hf0
            obtain ⟨g1, g2⟩ := (hm n a).1 he
            obtain ⟨g3, g4⟩ := (hm m b).1 hf
            dsimp only
            rw [g2, g4, Bool.or_eq_true, decide_eq_true_eq]
            by_cases e : n = m
            · exact Or.inl e
            · exact Or.inr (h n g1 m g3 e)
        by_cases c2 : d.vals.all (fun azs => decide (azs.length = r.perNode)) = true
        · rw [if_neg (by simp [c2])]
          by_cases c3 : r.perNode > 1 → (d.map (fun e => (e.1, aroundMean (mean e.2) e.2))).all (fun e => evenlySpaced r.scan e.2) = true
          · rw [if_neg (by
              rw [Bool.and_eq_true, decide_eq_true_eq]
              rintro ⟨p1, p2⟩
              rw [c3 p1] at p2
              cases p2)]
            have c3' : ∀ n ∈ nodesOf (x :: xs), r.perNode > 1 → evenlySpaced r.scan (aroundMean (mean (azimuthsOf (x :: xs) n)) (azimuthsOf (x :: xs) n)) = true :=
              fun n hn hp => h3.1 (c3 hp) n hn
            by_cases c4 : (d.map (fun e => (e.1, aroundMean (mean e.2) e.2))).all (fun e =>
              (d.map (fun e => (e.1, aroundMean (mean e.2) e.2))).all (fun f =>
              decide (e.1 = f.1) || nodesApart r.scan e.2 f.2)) = true
            · rw [if_pos c4]
              simp only [true_iff]
              exact Or.inr ⟨o1, o2, by omega, h2.1 c2, c3', h4.1 c4⟩
            · rw [if_neg c4]
              simp only [reduceCtorEq, false_or, false_iff]
              rintro ⟨_, _, _, _, _, h⟩
              exact c4 (h4.2 h)
          · rw [if_pos (by
              push_neg at c3
              rw [Bool.and_eq_true, decide_eq_true_eq]
              exact ⟨c3.1, by simpa using c3.2⟩)]
            simp only [reduceCtorEq, false_or, false_iff]
            rintro ⟨_, _, _, _, h, _⟩
            exact c3 fun hp => h3.2 fun n hn => h n hn hp
        · rw [if_pos (by simpa using c2)]
          simp only [reduceCtorEq, false_or, false_iff]
          rintro ⟨_, _, _, h, _⟩
          exact c2 (h2.2 h)

/-! ## The order around the mean -/

theorem around_compl (m a : ℚ) : decide ((a > m ∧ a ≤ m + 180) ∨ a ≤ m - 180) =
    !decide ((a ≤ m ∧ a > m - 180) ∨ a > m + 180) := by
  rw [Bool.eq_iff_iff]
  simp only [decide_eq_true_eq, Bool.not_eq_true', decide_eq_false_iff_not, not_or, not_and, not_lt, gt_iff_lt]
  constructor
  · rintro (⟨h1, h2⟩ | h)
    · exact ⟨fun h => absurd h1 (not_lt.2 h), h2⟩
    · exact ⟨fun _ => h, by linarith⟩
  · rintro ⟨h1, h2⟩
    by_cases h : a ≤ m
    · exact Or.inr (h1 h)
    · exact Or.inl ⟨not_le.1 h, h2⟩

theorem aroundMean_perm (m : ℚ) (azs : List ℚ) : (aroundMean m azs).Perm azs := by
  unfold aroundMean
  refine ((List.perm_insertionSort _ _).append (List.perm_insertionSort _ _)).trans ?_
  have : (fun a => decide ((a > m ∧ a ≤ m + 180) ∨ a ≤ m - 180)) =
      fun a => !decide ((a ≤ m ∧ a > m - 180) ∨ a > m + 180) := by
    funext a; exact around_compl m a
  rw [this]
  exact List.filter_append_perm _ _

/-- A list in order with the elements before the mean first is left as it is. -/
theorem aroundMean_id (m : ℚ) (l1 l2 : List ℚ)
    (h1 : ∀ a ∈ l1, (a ≤ m ∧ a > m - 180) ∨ a > m + 180)
    (h2 : ∀ a ∈ l2, ¬ ((a ≤ m ∧ a > m - 180) ∨ a > m + 180))
    (s1 : l1.Pairwise (· ≤ ·)) (s2 : l2.Pairwise (· ≤ ·)) : aroundMean m (l1 ++ l2) = l1 ++ l2 := by
  unfold aroundMean
  have : (fun a => decide ((a > m ∧ a ≤ m + 180) ∨ a ≤ m - 180)) =
      fun a => !decide ((a ≤ m ∧ a > m - 180) ∨ a > m + 180) := by
    funext a; exact around_compl m a
  rw [this, List.filter_append, List.filter_append,
    List.filter_eq_self.2 (fun a ha => by simpa using h1 a ha),
    List.filter_eq_nil_iff.2 (fun a ha => by simpa using h2 a ha),
    List.filter_eq_nil_iff.2 (fun a ha => by rw [decide_eq_true (h1 a ha)]; simp),
    List.filter_eq_self.2 (fun a ha => by rw [decide_eq_false (h2 a ha)]; rfl), List.append_nil, List.nil_append,
    List.Pairwise.insertionSort_eq s1, List.Pairwise.insertionSort_eq s2]

end Verif
