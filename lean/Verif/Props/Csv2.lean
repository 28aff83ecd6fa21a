import Verif.Props.Csv
import Verif.Lemmas.Tables
import Verif.Props.Tables3

/-! # C143: the sites of a CSV file -/

namespace Verif
namespace Csv

theorem place_iff {lib : Lib} {t : Table} (S : Single lib t) (k : Col) :
    (∀ i, place lib t k = some i ↔ At lib t k i) ∧ (place lib t k = none ↔ ∀ i, ¬ At lib t k i) := by
  have h1 : ∀ i, place lib t k = some i → At lib t k i := by
    intro i h
    unfold place at h
    rw [List.findIdx?_eq_some_iff_getElem] at h
    obtain ⟨hi, hp, -⟩ := h
    refine ⟨t.header[i], List.getElem?_eq_getElem hi, ?_⟩
    rw [← names_eq]
    simpa using hp
  have h2 : place lib t k = none → ∀ i, ¬ At lib t k i := by
    rintro h i ⟨g, hg, hk⟩
    unfold place at h
    rw [List.findIdx?_eq_none_iff] at h
    have := h g (List.mem_of_getElem? hg)
    rw [← names_eq] at hk
    simp [hk] at this
  refine ⟨fun i => ⟨h1 i, fun h => ?_⟩, h2, fun h => ?_⟩
  · cases hp : place lib t k with
    | none => exact absurd h (h2 hp i)
    | some j => rw [S k i j h (h1 j hp)]
  · cases hp : place lib t k with
    | none => rfl
    | some j => exact absurd (h1 j hp) (h j)

theorem numbers_iff (lib : Lib) (t : Table) (i : Nat) :
    ((column t i).all fun c => (lib.num c).isSome) = true ↔ Numbers lib t i := by
  unfold column Numbers entry
  simp [List.all_eq_true, Option.isSome_iff_exists]

/-- The cell of an attribute. -/
theorem cell_none {lib : Lib} {t : Table} (S : Single lib t) (k : Col) (r : List String) (h : ∀ i, ¬ At lib t k i) :
    cell lib t k r = none := by
  unfold cell
  rw [(place_iff S k).2.2 h]

theorem cell_some {lib : Lib} {t : Table} (S : Single lib t) (k : Col) {r : List String} (hr : r ∈ t.rows) {i : Nat}
    (h : At lib t k i) :
    (k.numeric = true → (Numbers lib t i → ∃ q, lib.num (entry r i) = some q ∧ cell lib t k r = some (.num q)) ∧
      (¬ Numbers lib t i → cell lib t k r = some (.text (entry r i)))) ∧
    (k.numeric = false → (Numbers lib t i →
        cell lib t k r = some (.text (lib.strip (lib.text (t.rows.map (entry · i)) (entry r i))))) ∧
      (¬ Numbers lib t i → cell lib t k r = some (.text (lib.strip (entry r i))))) := by
  have hp := ((place_iff S k).1 i).2 h
  refine ⟨fun hk => ⟨fun hn => ?_, fun hn => ?_⟩, fun hk => ⟨fun hn => ?_, fun hn => ?_⟩⟩
  · obtain ⟨q, hq⟩ := hn r hr
    refine ⟨q, hq, ?_⟩
    unfold cell
    rw [hp]
    dsimp only
    rw [if_pos ((numbers_iff lib t i).2 hn), if_pos hk]
    unfold entry at hq
    rw [hq]
    rfl
  · unfold cell
    rw [hp]
    dsimp only
    rw [if_neg (fun h => hn ((numbers_iff lib t i).1 h)), if_pos hk]
    rfl
  · unfold cell
    rw [hp]
    dsimp only
    rw [if_pos ((numbers_iff lib t i).2 hn), if_neg (by rw [hk]; simp)]
    rfl
  · unfold cell
    rw [hp]
    dsimp only
    rw [if_neg (fun h => hn ((numbers_iff lib t i).1 h)), if_neg (by rw [hk]; simp)]
    rfl

theorem degrees_iff {lib : Lib} (empty : lib.float "" = none) {t : Table} (S : Single lib t) (k : Col)
    (hk : k.numeric = true) {r : List String} (hr : r ∈ t.rows) (v : ℚ) :
    degrees lib (cell lib t k r) = .ok v ↔ SaysDegrees lib t k r v := by
  by_cases h : ∃ i, At lib t k i
  · obtain ⟨i, h⟩ := h
    obtain ⟨c1, c2⟩ := (cell_some S k hr h).1 hk
    by_cases hn : Numbers lib t i
    · obtain ⟨q, hq, hc⟩ := c1 hn
      rw [hc]
      constructor
      · intro e; cases e; exact ⟨i, h, fun _ => hq, fun h' => absurd hn h'⟩
      · rintro ⟨j, hj, h1, -⟩
        rw [S k j i hj h] at h1
        have := h1 hn
        rw [hq] at this
        cases this
        rfl
    · rw [c2 hn]
      change dms lib _ = _ ↔ _
      rw [(C141_dms lib empty _).1]
      constructor
      · intro e; exact ⟨i, h, fun h' => absurd h' hn, fun _ => e⟩
      · rintro ⟨j, hj, -, h1⟩
        rw [S k j i hj h] at h1
        exact h1 hn
  · rw [cell_none S k r (not_exists.1 h)]
    constructor
    · intro e; cases e
    · rintro ⟨i, hi, -⟩; exact absurd ⟨i, hi⟩ h

theorem text_iff {lib : Lib} {t : Table} (S : Single lib t) (k : Col) (hk : k.numeric = false) {r : List String}
    (hr : r ∈ t.rows) (s : Option String) :
    (cell lib t k r).map Cell.str = s ↔ SaysText lib t k r s := by
  by_cases h : ∃ i, At lib t k i
  · obtain ⟨i, h⟩ := h
    obtain ⟨c1, c2⟩ := (cell_some S k hr h).2 hk
    by_cases hn : Numbers lib t i
    · rw [c1 hn]
      constructor
      · rintro rfl; exact .inr ⟨i, h, fun _ => rfl, fun h' => absurd hn h'⟩
      · rintro (⟨h', -⟩ | ⟨j, hj, h1, -⟩)
        · exact absurd h (h' i)
        · rw [S k j i hj h] at h1; rw [h1 hn]; rfl
    · rw [c2 hn]
      constructor
      · rintro rfl; exact .inr ⟨i, h, fun h' => absurd h' hn, fun _ => rfl⟩
      · rintro (⟨h', -⟩ | ⟨j, hj, -, h1⟩)
        · exact absurd h (h' i)
        · rw [S k j i hj h] at h1; rw [h1 hn]; rfl
  · rw [cell_none S k r (not_exists.1 h)]
    constructor
    · rintro rfl; exact .inl ⟨not_exists.1 h, rfl⟩
    · rintro (⟨-, rfl⟩ | ⟨i, hi, -⟩)
      · rfl
      · exact absurd ⟨i, hi⟩ h

theorem num_iff {lib : Lib} {t : Table} (S : Single lib t) (k : Col) (hk : k.numeric = true) {r : List String}
    (hr : r ∈ t.rows) (c : Option Cell) : cell lib t k r = c ↔ SaysCell lib t k r c := by
  by_cases h : ∃ i, At lib t k i
  · obtain ⟨i, h⟩ := h
    obtain ⟨c1, c2⟩ := (cell_some S k hr h).1 hk
    by_cases hn : Numbers lib t i
    · obtain ⟨q, hq, hc⟩ := c1 hn
      rw [hc]
      constructor
      · rintro rfl; exact .inr ⟨i, h, fun _ => ⟨q, hq, rfl⟩, fun h' => absurd hn h'⟩
      · rintro (⟨h', -⟩ | ⟨j, hj, h1, -⟩)
        · exact absurd h (h' i)
        · rw [S k j i hj h] at h1
          obtain ⟨q', e1, rfl⟩ := h1 hn
          rw [hq] at e1
          cases e1
          rfl
    · rw [c2 hn]
      constructor
      · rintro rfl; exact .inr ⟨i, h, fun h' => absurd h' hn, fun _ => rfl⟩
      · rintro (⟨h', -⟩ | ⟨j, hj, -, h1⟩)
        · exact absurd h (h' i)
        · rw [S k j i hj h] at h1; rw [h1 hn]
  · rw [cell_none S k r (not_exists.1 h)]
    constructor
    · rintro rfl; exact .inl ⟨not_exists.1 h, rfl⟩
    · rintro (⟨-, rfl⟩ | ⟨i, hi, -⟩)
      · rfl
      · exact absurd ⟨i, hi⟩ h

theorem subs_iff {lib : Lib} {t : Table} (S : Single lib t) {r : List String} (hr : r ∈ t.rows) (n : Option ℚ) :
    subscribers lib (cell lib t .subs r) = .ok n ↔ SaysSubs lib t r n := by
  by_cases h : ∃ i, At lib t .subs i
  · obtain ⟨i, h⟩ := h
    obtain ⟨c1, c2⟩ := (cell_some S .subs hr h).1 rfl
    by_cases hn : Numbers lib t i
    · obtain ⟨q, hq, hc⟩ := c1 hn
      rw [hc]
      constructor
      · intro e; cases e; exact .inr ⟨i, h, fun _ => ⟨q, hq, rfl⟩, fun h' => absurd hn h'⟩
      · rintro (⟨h', -⟩ | ⟨j, hj, h1, -⟩)
        · exact absurd h (h' i)
        · rw [S .subs j i hj h] at h1
          obtain ⟨q', e1, rfl⟩ := h1 hn
          rw [hq] at e1
          cases e1
          rfl
    · rw [c2 hn]
      unfold subscribers
      dsimp only
      by_cases he : entry r i = ""
      · rw [if_pos he]
        constructor
        · intro e; cases e; exact .inr ⟨i, h, fun h' => absurd h' hn, fun _ => .inl ⟨he, rfl⟩⟩
        · rintro (⟨h', -⟩ | ⟨j, hj, -, h1⟩)
          · exact absurd h (h' i)
          · rw [S .subs j i hj h] at h1
            rcases h1 hn with ⟨-, rfl⟩ | ⟨h2, -⟩
            · rfl
            · exact absurd he h2
      · rw [if_neg he]
        constructor
        · intro e
          cases hm : lib.int (entry r i) with
          | none => rw [hm] at e; cases e
          | some m =>
            rw [hm] at e
            cases e
            exact .inr ⟨i, h, fun h' => absurd h' hn, fun _ => .inr ⟨he, m, hm, rfl⟩⟩
        · rintro (⟨h', -⟩ | ⟨j, hj, -, h1⟩)
          · exact absurd h (h' i)
          · rw [S .subs j i hj h] at h1
            rcases h1 hn with ⟨h2, -⟩ | ⟨-, m, hm, rfl⟩
            · exact absurd h2 he
            · rw [hm]
  · rw [cell_none S .subs r (not_exists.1 h)]
    constructor
    · intro e; cases e; exact .inl ⟨not_exists.1 h, rfl⟩
    · rintro (⟨-, rfl⟩ | ⟨i, hi, -⟩)
      · rfl
      · exact absurd ⟨i, hi⟩ h

theorem word_unique {l w rest : List Char} (h : l = w ++ rest) (hw : ' ' ∉ w) (hr : rest = [] ∨ ∃ q, rest = ' ' :: q) :
    l.takeWhile (· ≠ ' ') = w := by
  subst h
  induction w with
  | nil => rcases hr with rfl | ⟨q, rfl⟩ <;> simp
  | cons c w ih =>
    rw [List.mem_cons, not_or] at hw
    rw [List.cons_append, List.takeWhile_cons, if_pos (by simpa using Ne.symm hw.1), ih hw.2]

theorem type_iff {lib : Lib} {t : Table} (S : Single lib t) {r : List String} (hr : r ∈ t.rows) (ty : SiteType) :
    siteTypeOf lib (cell lib t .typ r) = .ok ty ↔ SaysType lib t r ty := by
  have key : ∀ s : Option String, (cell lib t .typ r).map Cell.str = s → (siteTypeOf lib (cell lib t .typ r) = .ok ty ↔
      String.ofList ((lib.upper (s.getD "POP")).toList.takeWhile (· ≠ ' ')) = ty.str) := by
    rintro s rfl
    unfold siteTypeOf
    dsimp only
    generalize String.ofList _ = w
    constructor
    · intro h
      split at h
      · cases h; assumption
      · split at h
        · cases h; assumption
        · split at h
          · cases h; assumption
          · cases h
    · rintro rfl
      cases ty <;> rfl
  constructor
  · intro h
    refine ⟨_, (text_iff S .typ rfl hr _).1 rfl, ?_⟩
    have := (key _ rfl).1 h
    refine ⟨_, (lib.upper (((cell lib t .typ r).map Cell.str).getD "POP")).toList.dropWhile (· ≠ ' '),
      (List.takeWhile_append_dropWhile).symm, ?_, ?_, this⟩
    · intro h'
      have := takeWhile_all _ _ _ h'
      simp at this
    · cases hd : (lib.upper (((cell lib t .typ r).map Cell.str).getD "POP")).toList.dropWhile (· ≠ ' ') with
      | nil => exact .inl rfl
      | cons d q =>
        right
        have := List.head_dropWhile_not (fun c : Char => decide (c ≠ ' '))
          (l := (lib.upper (((cell lib t .typ r).map Cell.str).getD "POP")).toList) (by rw [hd]; simp)
        simp only [hd, List.head_cons] at this
        have : d = ' ' := by simpa using this
        exact ⟨q, by rw [this]⟩
  · rintro ⟨s, hs, w, rest, h1, h2, h3, h4⟩
    rw [key s ((text_iff S .typ rfl hr s).2 hs), word_unique h1 h2 h3, h4]

theorem mapM_iff {α β : Type} (f : α → Except Err β) (L : List α) (ys : List β) :
    L.mapM f = .ok ys ↔ List.Forall₂ (fun a y => f a = .ok y) L ys := by
  induction L generalizing ys with
  | nil =>
    constructor
    · intro h; cases h; exact .nil
    · intro h; cases h; rfl
  | cons a L ih =>
    rw [List.mapM_cons]
    constructor
    · intro h
      cases ha : f a with
      | error e => rw [ha] at h; cases h
      | ok y =>
        rw [ha] at h
        cases hL : L.mapM f with
        | error e => rw [hL] at h; cases h
        | ok zs =>
          rw [hL] at h
          cases h
          exact .cons ha ((ih zs).1 hL)
    · intro h
      cases h with
      | cons ha hL => rw [ha, (ih _).2 hL]; rfl

theorem validRow_iff {lib : Lib} {t : Table} (r : List String) (v : ℚ × ℚ × Option ℚ) :
    validRow lib t r = .ok v ↔ degrees lib (cell lib t .lat r) = .ok v.1 ∧ degrees lib (cell lib t .lon r) = .ok v.2.1 ∧
      subscribers lib (cell lib t .subs r) = .ok v.2.2 := by
  obtain ⟨y, x, n⟩ := v
  unfold validRow
  cases degrees lib (cell lib t .lat r) with
  | error e => simp
  | ok a =>
    dsimp only
    cases degrees lib (cell lib t .lon r) with
    | error e => simp
    | ok b =>
      dsimp only
      cases subscribers lib (cell lib t .subs r) with
      | error e => simp
      | ok c => simp

/-- **C143.** The sites of a file are read exactly if the header is accepted and every row says a site; there is one
site per row, in the order of the rows. Altitudes and heights of a column that is not all numbers stay texts. -/
theorem C143_sites_partial (lib : Lib) (empty : lib.float "" = none) (t : Table) (user : Bool) (S : Single lib t)
    (xs : List Row) :
    loadSites lib t user = .ok xs ↔ HeaderOk lib t user ∧ List.Forall₂ (RowSays lib t) t.rows xs := by
  have row : ∀ r ∈ t.rows, ∀ x, RowSays lib t r x ↔ ∃ v, validRow lib t r = .ok v ∧ siteRow lib t (r, v) = .ok x := by
    intro r hr x
    constructor
    · rintro ⟨h1, h2, h3, h4, h5, h6, h7, h8, h9⟩
      refine ⟨(x.lat, x.lon, x.subs), (validRow_iff r _).2 ⟨(degrees_iff empty S .lat rfl hr _).2 h1,
        (degrees_iff empty S .lon rfl hr _).2 h2, (subs_iff S hr _).2 h9⟩, ?_⟩
      unfold siteRow
      dsimp only
      rw [(type_iff S hr _).2 h3, (text_iff S .sku rfl hr _).2 h5, (text_iff S .name rfl hr _).2 h4,
        (text_iff S .building rfl hr _).2 h6, (num_iff S .alt rfl hr _).2 h7, (num_iff S .height rfl hr _).2 h8]
    · rintro ⟨v, hv, hx⟩
      obtain ⟨v1, v2, v3⟩ := (validRow_iff r v).1 hv
      unfold siteRow at hx
      dsimp only at hx
      cases hty : siteTypeOf lib (cell lib t .typ r) with
      | error e => rw [hty] at hx; cases hx
      | ok ty =>
        rw [hty] at hx
        dsimp only at hx
        rw [Except.ok.injEq] at hx
        rw [← hx]
        exact ⟨(degrees_iff empty S .lat rfl hr _).1 v1, (degrees_iff empty S .lon rfl hr _).1 v2,
          (type_iff S hr _).1 hty, (text_iff S .name rfl hr _).1 rfl, (text_iff S .sku rfl hr _).1 rfl,
          (text_iff S .building rfl hr _).1 rfl, (num_iff S .alt rfl hr _).1 rfl, (num_iff S .height rfl hr _).1 rfl,
          (subs_iff S hr _).1 v3⟩
  have two : ∀ (rs : List (List String)) xs, (∃ ps, rs.mapM (fun r => (validRow lib t r).map fun v => (r, v)) = .ok ps ∧
      ps.mapM (siteRow lib t) = .ok xs) ↔
      List.Forall₂ (fun r x => ∃ v, validRow lib t r = .ok v ∧ siteRow lib t (r, v) = .ok x) rs xs := by
    intro rs
    induction rs with
    | nil =>
      intro xs
      constructor
      · rintro ⟨ps, h1, h2⟩; cases h1; cases h2; exact .nil
      · intro h; cases h; exact ⟨[], rfl, rfl⟩
    | cons r rs ih =>
      intro xs
      constructor
      · rintro ⟨ps, h1, h2⟩
        rw [mapM_iff] at h1
        cases h1 with
        | @cons _ p _ ps h1 h1' =>
          cases hv : validRow lib t r with
          | error e => rw [hv] at h1; cases h1
          | ok v =>
            rw [hv] at h1
            cases h1
            rw [mapM_iff] at h2
            cases h2 with
            | cons h2 h2' => exact .cons ⟨v, hv, h2⟩ ((ih _).1 ⟨ps, (mapM_iff _ _ _).2 h1', (mapM_iff _ _ _).2 h2'⟩)
      · intro h
        cases h with
        | cons h1 h2 =>
          obtain ⟨v, hv, hx⟩ := h1
          obtain ⟨ps, g1, g2⟩ := (ih _).2 h2
          refine ⟨(r, v) :: ps, (mapM_iff _ _ _).2 (.cons (by rw [hv]; rfl) ((mapM_iff _ _ _).1 g1)),
            (mapM_iff _ _ _).2 (.cons hx ((mapM_iff _ _ _).1 g2))⟩
  have all : List.Forall₂ (RowSays lib t) t.rows xs ↔
      List.Forall₂ (fun r x => ∃ v, validRow lib t r = .ok v ∧ siteRow lib t (r, v) = .ok x) t.rows xs := by
    have : ∀ rs, (∀ r ∈ rs, r ∈ t.rows) → ∀ xs, List.Forall₂ (RowSays lib t) rs xs ↔
        List.Forall₂ (fun r x => ∃ v, validRow lib t r = .ok v ∧ siteRow lib t (r, v) = .ok x) rs xs := by
      intro rs
      induction rs with
      | nil => intro _ xs; cases xs <;> simp
      | cons r rs ih =>
        intro h xs
        cases xs with
        | nil => simp
        | cons x xs =>
          rw [List.forall₂_cons, List.forall₂_cons, row r (h r (by simp)), ih (fun r hr => h r (by simp [hr]))]
    exact this t.rows (fun _ h => h) xs
  obtain ⟨c1, c2, -⟩ := C142_header_partial lib t user
  rw [all, ← two]
  unfold loadSites
  cases hc : checkHeader lib t user with
  | error e =>
    constructor
    · intro h; cases h
    · rintro ⟨h, -⟩
      rw [c1.2 h] at hc
      cases hc
  | ok _ =>
    have hh : HeaderOk lib t user := c1.1 hc
    dsimp only
    cases hm : t.rows.mapM (fun r => (validRow lib t r).map fun v => (r, v)) with
    | error e =>
      constructor
      · intro h; cases h
      · rintro ⟨-, ps, h, -⟩; cases h
    | ok ps =>
      constructor
      · intro h; exact ⟨hh, ps, rfl, h⟩
      · rintro ⟨-, ps', h, h'⟩; cases h; exact h'

end Csv
end Verif
