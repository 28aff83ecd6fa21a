import Verif.Model.Demand
import Verif.Spec.Demand
import Verif.Lemmas.Rf
import Verif.Props.Topology
import Mathlib.Tactic.Linarith
import Mathlib.Tactic.Ring
import Mathlib.Tactic.NormNum
import Mathlib.Algebra.Order.Floor.Semiring
import Mathlib.Data.Rat.Floor
import Mathlib.Logic.Encodable.Basic
import Mathlib.Data.Rat.Encodable

/-! # Uniform demand grid (C58) -/

namespace Verif
namespace Topology

open Spec

/-- There is a demand site at this position. -/
def DemandAt (hash : DemandHash) (t : Topology) (lon lat : ℚ) : Prop :=
  ∃ d, t.demandSites.get? (hash lon lat) = some d ∧ d.lon = lon ∧ d.lat = lat

/-- No two positions share a demand id. -/
def HashInj (hash : DemandHash) : Prop :=
  ∀ a b c d, hash a b = hash c d → a = c ∧ b = d

theorem addGridPoint_at {hash : DemandHash} (inj : HashInj hash) {t t' : Topology} {demand lon lat : ℚ}
    (ok : t.addGridPoint hash demand lon lat = (t', none)) :
    DemandAt hash t' lon lat ∧ ∀ a b, DemandAt hash t a b → DemandAt hash t' a b := by
  unfold addGridPoint at ok
  split at ok
  · unfold addDemandSite at ok
    cases ok
    constructor
    · exact ⟨_, Dict.get?_set_self _ _ _, rfl, rfl⟩
    · rintro a b ⟨d, hd, h1, h2⟩
      unfold DemandAt
      dsimp only
      rw [Dict.get?_set]
      by_cases c : hash lon lat = hash a b
      · rw [if_pos c]
        obtain ⟨c1, c2⟩ := inj _ _ _ _ c
        exact ⟨_, rfl, c1, c2⟩
      · rw [if_neg c]
        exact ⟨d, hd, h1, h2⟩
  · cases ok

theorem latLoop_at {hash : DemandHash} (inj : HashInj hash) {demand : ℚ} {g : Grid} (hdy : 0 < g.dy)
    {lon : ℚ} : ∀ (fuel : Nat) (t t' : Topology) (lat : ℚ),
    latLoop hash demand g lon fuel t lat = some (t', none) →
    (∀ a b, DemandAt hash t a b → DemandAt hash t' a b) ∧
    ∀ k : ℕ, lat + k * g.dy ≤ g.top → DemandAt hash t' lon (lat + k * g.dy) := by
  intro fuel
  induction fuel with
  | zero => intro t t' lat h; unfold latLoop at h; cases h
  | succ n ih =>
    intro t t' lat h
    unfold latLoop at h
    by_cases c : lat ≤ g.top
    · rw [if_pos c] at h
      generalize ho : t.addGridPoint hash demand lon lat = o at h
      obtain ⟨t1, e⟩ := o
      cases e with
      | some e => cases h
      | none =>
        obtain ⟨p1, p2⟩ := addGridPoint_at inj ho
        obtain ⟨q1, q2⟩ := ih t1 t' (lat + g.dy) h
        refine ⟨fun a b x => q1 a b (p2 a b x), ?_⟩
        intro k hk
        cases k with
        | zero =>
          rw [Nat.cast_zero, zero_mul, add_zero]
          exact q1 _ _ p1
        | succ k =>
          have e : lat + ((k + 1 : ℕ) : ℚ) * g.dy = lat + g.dy + k * g.dy := by push_cast; ring
          rw [e] at hk ⊢
          exact q2 k hk
    · rw [if_neg c] at h
      cases h
      refine ⟨fun _ _ x => x, ?_⟩
      intro k hk
      exfalso
      have : 0 ≤ (k : ℚ) * g.dy := mul_nonneg (Nat.cast_nonneg k) hdy.le
      exact c (by linarith)

/-- The longitudes visited by the outer loop. -/
def lonAt (dx : ℚ) : Nat → ℚ → ℚ
  | 0, x => x
  | k + 1, x => lonAt dx k (wrapLon (x + dx))

theorem lonLoop_at {hash : DemandHash} (inj : HashInj hash) {demand : ℚ} {g : Grid} (hdy : 0 < g.dy)
    {rounds : Nat} : ∀ (fuel : Nat) (t t' : Topology) (x : ℚ),
    lonLoop hash demand g rounds fuel t x = some (t', none) →
    (∀ a b, DemandAt hash t a b → DemandAt hash t' a b) ∧
    ∀ k : ℕ, (∀ j ≤ k, g.more (lonAt g.dx j x) = true) → ∀ i : ℕ, g.bottom + i * g.dy ≤ g.top →
      DemandAt hash t' (lonAt g.dx k x) (g.bottom + i * g.dy) := by
  intro fuel
  induction fuel with
  | zero => intro t t' x h; unfold lonLoop at h; cases h
  | succ n ih =>
    intro t t' x h
    unfold lonLoop at h
    by_cases c : g.more x = true
    · rw [if_pos c] at h
      generalize ho : latLoop hash demand g x rounds t g.bottom = o at h
      cases o with
      | none => cases h
      | some o =>
        obtain ⟨t1, e⟩ := o
        cases e with
        | some e => cases h
        | none =>
          obtain ⟨p1, p2⟩ := latLoop_at inj hdy rounds t t1 g.bottom ho
          obtain ⟨q1, q2⟩ := ih t1 t' _ h
          refine ⟨fun a b y => q1 a b (p1 a b y), ?_⟩
          intro k hk i hi
          cases k with
          | zero => exact q1 _ _ (p2 i hi)
          | succ k =>
            exact q2 k (fun j hj => hk (j + 1) (Nat.succ_le_succ hj)) i hi
    · rw [if_neg c] at h
      cases h
      refine ⟨fun _ _ x => x, ?_⟩
      intro k hk
      exact absurd (hk 0 (Nat.zero_le _)) c

theorem lonAt_flat {dx : ℚ} (hdx : 0 < dx) : ∀ (k : ℕ) (x : ℚ), x + k * dx ≤ 180 →
    lonAt dx k x = x + k * dx := by
  intro k
  induction k with
  | zero => intro x _; unfold lonAt; rw [Nat.cast_zero, zero_mul, add_zero]
  | succ k ih =>
    intro x h
    have hk : 0 ≤ (k : ℚ) * dx := mul_nonneg (Nat.cast_nonneg k) hdx.le
    have e : x + ((k + 1 : ℕ) : ℚ) * dx = x + dx + k * dx := by push_cast; ring
    rw [e] at h ⊢
    unfold lonAt wrapLon
    rw [if_neg (by linarith), ih _ h]

theorem lonAt_wrap {dx : ℚ} (hdx : 0 < dx) : ∀ (k : ℕ) (x : ℚ), x ≤ 180 → x + k * dx ≤ 540 →
    lonAt dx k x = wrapLon (x + k * dx) := by
  intro k
  induction k with
  | zero =>
    intro x h _
    unfold lonAt wrapLon
    rw [Nat.cast_zero, zero_mul, add_zero, if_neg (by linarith)]
  | succ k ih =>
    intro x h h2
    have hk : 0 ≤ (k : ℚ) * dx := mul_nonneg (Nat.cast_nonneg k) hdx.le
    have e : x + ((k + 1 : ℕ) : ℚ) * dx = x + dx + k * dx := by push_cast; ring
    rw [e] at h2 ⊢
    unfold lonAt
    by_cases c : x + dx > 180
    · have e1 : wrapLon (x + dx) = x + dx - 360 := by unfold wrapLon; rw [if_pos c]
      rw [e1, lonAt_flat hdx k _ (by linarith)]
      unfold wrapLon
      rw [if_pos (by linarith)]
      ring
    · have e1 : wrapLon (x + dx) = x + dx := by unfold wrapLon; rw [if_neg c]
      rw [e1, ih _ (by linarith) h2]

theorem wrapLon_le {x : ℚ} (h : x ≤ 540) : wrapLon x ≤ 180 := by
  unfold wrapLon
  split <;> linarith

/-- If every longitude satisfies the loop condition the loop does not return. -/
theorem lonLoop_never {hash : DemandHash} {demand : ℚ} {g : Grid} (hdx : g.dx ≤ 360)
    (all : ∀ x ≤ 180, g.more x = true) {rounds : Nat} : ∀ (fuel : Nat) (t t' : Topology) (x : ℚ),
    x ≤ 180 → lonLoop hash demand g rounds fuel t x ≠ some (t', none) := by
  intro fuel
  induction fuel with
  | zero => intro t t' x _ h; unfold lonLoop at h; cases h
  | succ n ih =>
    intro t t' x hx h
    unfold lonLoop at h
    rw [if_pos (all x hx)] at h
    generalize latLoop hash demand g x rounds t g.bottom = o at h
    cases o with
    | none => cases h
    | some o =>
      obtain ⟨t1, e⟩ := o
      cases e with
      | some e => cases h
      | none => exact ih t1 t' _ (wrapLon_le (by linarith)) h

/-- A grid from `lo` with step `d` reaching `hi` has a point within half a step
of every `x` with a step to spare on both sides. -/
theorem grid_point {lo hi d x : ℚ} (hd : 0 < d) (h1 : lo + d ≤ x) (h2 : x + d ≤ hi) :
    ∃ k : ℕ, lo + k * d ≤ hi ∧ |lo + k * d - x| ≤ d / 2 := by
  have h0 : 0 ≤ (x - lo) / d := div_nonneg (by linarith) hd.le
  have a := Nat.floor_le h0
  have b := Nat.lt_floor_add_one ((x - lo) / d)
  generalize ⌊(x - lo) / d⌋₊ = n at a b
  rw [le_div_iff₀ hd] at a
  rw [div_lt_iff₀ hd] at b
  by_cases c : x - (lo + n * d) ≤ d / 2
  · exact ⟨n, by linarith, by rw [abs_le]; constructor <;> linarith⟩
  · refine ⟨n + 1, ?_, ?_⟩
    · push_cast; linarith
    · push_cast
      rw [abs_le]
      constructor <;> linarith

theorem mem_site_vals {t : Topology} {s : Site} (h : s ∈ t.sites.vals) : ∃ id, (id, s) ∈ t.sites := by
  obtain ⟨⟨k, v⟩, hm, rfl⟩ := List.mem_map.1 h
  exact ⟨k, hm⟩

theorem site_vals_of {t : Topology} {id : SiteId} {s : Site} (h : t.sites.get? id = some s) :
    s ∈ t.sites.vals := List.mem_map.2 ⟨_, Dict.mem_of_get? _ h, rfl⟩

theorem antimeridian_iff {t : Topology} (nd : t.sites.NodupKeys) :
    t.antimeridian = true ↔ Crossing t := by
  unfold antimeridian Crossing
  rw [Bool.and_eq_true, List.any_eq_true, List.any_eq_true]
  constructor
  · rintro ⟨⟨a, ha, ha'⟩, b, hb, hb'⟩
    obtain ⟨i, hi⟩ := mem_site_vals ha
    obtain ⟨j, hj⟩ := mem_site_vals hb
    exact ⟨⟨i, a, (Dict.mem_iff_get? nd _ _).1 hi, of_decide_eq_true ha'⟩,
      j, b, (Dict.mem_iff_get? nd _ _).1 hj, of_decide_eq_true hb'⟩
  · rintro ⟨⟨i, a, ha, ha'⟩, j, b, hb, hb'⟩
    exact ⟨⟨a, site_vals_of ha, decide_eq_true ha'⟩, b, site_vals_of hb, decide_eq_true hb'⟩

/-- What `gridOf` says about the sites. -/
structure GridSpec (t : Topology) (dx dy : ℚ) (g : Grid) : Prop where
  edx : g.dx = dx
  edy : g.dy = dy
  anti : g.anti = t.antimeridian
  left_le : ∀ s ∈ t.sites.vals, (t.antimeridian = false ∨ 175 ≤ s.lon) → g.left + dx ≤ s.lon
  right_ge : ∀ s ∈ t.sites.vals, (t.antimeridian = false ∨ s.lon ≤ -175) → s.lon + dx ≤ g.right
  bottom_le : ∀ s ∈ t.sites.vals, g.bottom + dy ≤ s.lat
  top_ge : ∀ s ∈ t.sites.vals, s.lat + dy ≤ g.top
  left_at : ∃ s ∈ t.sites.vals, (t.antimeridian = false ∨ 175 ≤ s.lon) ∧ s.lon = g.left + dx
  right_at : ∃ s ∈ t.sites.vals, (t.antimeridian = false ∨ s.lon ≤ -175) ∧ s.lon + dx = g.right
  bottom_at : ∃ s ∈ t.sites.vals, s.lat = g.bottom + dy
  top_at : ∃ s ∈ t.sites.vals, s.lat + dy = g.top

theorem gridOf_spec {t : Topology} {dx dy : ℚ} {g : Grid} (h : t.gridOf dx dy = some g) :
    GridSpec t dx dy g := by
  unfold gridOf at h
  split at h
  · rename_i l r b u hl hr hb hu
    rw [pyMin_iff] at hl hb
    rw [pyMax_iff] at hr hu
    cases h
    have cond1 : ∀ s ∈ t.sites.vals, (t.antimeridian = false ∨ 175 ≤ s.lon) ↔
        s ∈ t.sites.vals.filter (fun s => !t.antimeridian || decide (s.lon ≥ 175)) := by
      intro s hs
      rw [List.mem_filter, Bool.or_eq_true, decide_eq_true_eq, Bool.not_eq_true']
      exact ⟨fun x => ⟨hs, x⟩, fun x => x.2⟩
    have cond2 : ∀ s ∈ t.sites.vals, (t.antimeridian = false ∨ s.lon ≤ -175) ↔
        s ∈ t.sites.vals.filter (fun s => !t.antimeridian || decide (s.lon ≤ -175)) := by
      intro s hs
      rw [List.mem_filter, Bool.or_eq_true, decide_eq_true_eq, Bool.not_eq_true']
      exact ⟨fun x => ⟨hs, x⟩, fun x => x.2⟩
    refine ⟨rfl, rfl, rfl, ?_, ?_, ?_, ?_, ?_, ?_, ?_, ?_⟩
    · intro s hs hc
      have := hl.2 _ (List.mem_map.2 ⟨s, (cond1 s hs).1 hc, rfl⟩)
      dsimp only
      linarith
    · intro s hs hc
      have := hr.2 _ (List.mem_map.2 ⟨s, (cond2 s hs).1 hc, rfl⟩)
      dsimp only
      linarith
    · intro s hs
      have := hb.2 _ (List.mem_map.2 ⟨s, hs, rfl⟩)
      dsimp only
      linarith
    · intro s hs
      have := hu.2 _ (List.mem_map.2 ⟨s, hs, rfl⟩)
      dsimp only
      linarith
    · obtain ⟨s, hs, e⟩ := List.mem_map.1 hl.1
      have hs' := (List.mem_filter.1 hs).1
      refine ⟨s, hs', (cond1 s hs').2 hs, ?_⟩
      dsimp only
      rw [← e]; ring
    · obtain ⟨s, hs, e⟩ := List.mem_map.1 hr.1
      have hs' := (List.mem_filter.1 hs).1
      refine ⟨s, hs', (cond2 s hs').2 hs, ?_⟩
      dsimp only
      rw [← e]
    · obtain ⟨s, hs, e⟩ := List.mem_map.1 hb.1
      refine ⟨s, hs, ?_⟩
      dsimp only
      rw [← e]; ring
    · obtain ⟨s, hs, e⟩ := List.mem_map.1 hu.1
      refine ⟨s, hs, ?_⟩
      dsimp only
      rw [← e]
  · cases h

theorem more_iff (g : Grid) (x : ℚ) :
    g.more x = true ↔ x ≤ g.right ∨ (g.anti = true ∧ g.left ≤ x) := by
  unfold Grid.more
  rw [Bool.or_eq_true, Bool.and_eq_true, decide_eq_true_eq, decide_eq_true_eq]

/-- C58, coverage: whenever the uniform grid returns, every position in the box
around the sites is within half a grid step of a demand point in both directions
(`dx`, `dy` are the grid steps in degrees; a step is less than half a turn). -/
theorem C58_covers (ops : List Op) (hash : DemandHash) (inj : HashInj hash)
    (demand dx dy : ℚ) (hdx : 0 < dx) (hdx' : dx ≤ 180) (hdy : 0 < dy)
    (valid : ∀ id s, (run {} ops).sites.get? id = some s → -180 ≤ s.lon ∧ s.lon ≤ 180)
    (fuel : Nat) (t' : Topology)
    (ok : (run {} ops).addUniform hash demand dx dy fuel = some (t', none))
    (lon lat : ℚ) (h : InBox (run {} ops) lon lat) :
    ∃ d ∈ t'.demandSites.vals, LonNear d.lon lon (dx / 2) ∧ |d.lat - lat| ≤ dy / 2 := by
  have inv := Inv.empty.run ops
  generalize run {} ops = t at *
  unfold addUniform at ok
  cases hg : t.gridOf dx dy with
  | none => rw [hg] at ok; cases ok
  | some g =>
    rw [hg] at ok
    dsimp only at ok
    have sp := gridOf_spec hg
    have valid' : ∀ s ∈ t.sites.vals, -180 ≤ s.lon ∧ s.lon ≤ 180 := by
      intro s hs
      obtain ⟨id, hm⟩ := mem_site_vals hs
      exact valid id s ((Dict.mem_iff_get? inv.nd_sites _ _).1 hm)
    have hl180 : g.left ≤ 180 := by
      obtain ⟨s, hs, _, e⟩ := sp.left_at
      have := (valid' s hs).2
      linarith
    have never : ∀ all : ∀ x ≤ 180, g.more x = true, False := by
      intro all
      exact lonLoop_never (by rw [sp.edx]; linarith) all fuel t t' _ hl180 ok
    have hr180 : g.right < 180 := by
      by_contra c
      apply never
      intro x hx
      rw [more_iff]
      left; linarith
    obtain ⟨_, at_⟩ := lonLoop_at inj (by rw [sp.edy]; exact hdy) fuel t t' g.left ok
    rw [sp.edx, sp.edy] at at_
    -- latitude
    obtain ⟨⟨i1, j1, a1, b1, ha1, hb1, hlat1, hlat2⟩, hlon⟩ := h
    have hbot := sp.bottom_le a1 (site_vals_of ha1)
    have htop := sp.top_ge b1 (site_vals_of hb1)
    obtain ⟨i, hi, hi'⟩ := grid_point hdy (show g.bottom + dy ≤ lat by linarith)
      (show lat + dy ≤ g.top by linarith)
    have anti_iff := antimeridian_iff inv.nd_sites
    -- longitude
    have hlonk : ∃ k : ℕ, (∀ j ≤ k, g.more (lonAt dx j g.left) = true) ∧
        LonNear (lonAt dx k g.left) lon (dx / 2) := by
      rcases hlon with ⟨hnc, ia, ib, a, b, ha, hb, h1, h2⟩ | ⟨hc, ia, a, ha, hlon⟩
      · have hanti : t.antimeridian = false := by
          rw [← Bool.not_eq_true, anti_iff]; exact hnc
        have hl := sp.left_le a (site_vals_of ha) (Or.inl hanti)
        have hr := sp.right_ge b (site_vals_of hb) (Or.inl hanti)
        obtain ⟨k, hk, hk'⟩ := grid_point hdx (show g.left + dx ≤ lon by linarith)
          (show lon + dx ≤ g.right by linarith)
        have step : ∀ j ≤ k, g.left + j * dx ≤ g.right := by
          intro j hj
          have : (j : ℚ) * dx ≤ k * dx :=
            mul_le_mul_of_nonneg_right (Nat.cast_le.2 hj) hdx.le
          linarith
        refine ⟨k, ?_, ?_⟩
        · intro j hj
          rw [lonAt_flat hdx j _ (by have := step j hj; linarith), more_iff]
          exact Or.inl (step j hj)
        · rw [lonAt_flat hdx k _ (by linarith)]
          exact ⟨0, by rw [Int.cast_zero, mul_zero, add_zero]; exact hk'⟩
      · have hanti : t.antimeridian = true := anti_iff.2 hc
        -- unwrapped position
        have hu : ∃ u : ℚ, (∃ z : ℤ, u = lon + 360 * z) ∧ g.left + dx ≤ u ∧ u + dx ≤ g.right + 360 := by
          obtain ⟨sr, hsr, hsr', er⟩ := sp.right_at
          obtain ⟨sl, hsl, hsl', el⟩ := sp.left_at
          have vr := valid' sr hsr
          have vl := valid' sl hsl
          rcases hlon with ⟨c1, c2, c3⟩ | ⟨c1, c2, c3⟩
          · refine ⟨lon, ⟨0, by rw [Int.cast_zero, mul_zero, add_zero]⟩, ?_, ?_⟩
            · have := sp.left_le a (site_vals_of ha) (Or.inr c1)
              linarith
            · linarith
          · refine ⟨lon + 360, ⟨1, by rw [Int.cast_one, mul_one]⟩, ?_, ?_⟩
            · linarith
            · have := sp.right_ge a (site_vals_of ha) (Or.inr c1)
              linarith
        obtain ⟨u, ⟨z, hz⟩, hu1, hu2⟩ := hu
        obtain ⟨k, hk, hk'⟩ := grid_point hdx hu1 hu2
        have step : ∀ j ≤ k, g.left + j * dx ≤ g.right + 360 := by
          intro j hj
          have : (j : ℚ) * dx ≤ k * dx :=
            mul_le_mul_of_nonneg_right (Nat.cast_le.2 hj) hdx.le
          linarith
        refine ⟨k, ?_, ?_⟩
        · intro j hj
          rw [lonAt_wrap hdx j _ hl180 (by have := step j hj; linarith), more_iff, sp.anti]
          unfold wrapLon
          by_cases c : g.left + j * dx > 180
          · rw [if_pos c]
            left
            have := step j hj
            linarith
          · rw [if_neg c]
            right
            refine ⟨hanti, ?_⟩
            have : 0 ≤ (j : ℚ) * dx := mul_nonneg (Nat.cast_nonneg j) hdx.le
            linarith
        · rw [lonAt_wrap hdx k _ hl180 (by linarith)]
          unfold wrapLon
          by_cases c : g.left + k * dx > 180
          · rw [if_pos c]
            refine ⟨1 - z, ?_⟩
            rw [show g.left + k * dx - 360 - lon + 360 * ((1 - z : ℤ) : ℚ) =
              g.left + k * dx - (lon + 360 * z) by push_cast; ring, ← hz]
            exact hk'
          · rw [if_neg c]
            refine ⟨-z, ?_⟩
            rw [show g.left + k * dx - lon + 360 * ((-z : ℤ) : ℚ) =
              g.left + k * dx - (lon + 360 * z) by push_cast; ring, ← hz]
            exact hk'
    obtain ⟨k, hk, hk'⟩ := hlonk
    obtain ⟨d, hd, e1, e2⟩ := at_ k hk i hi
    refine ⟨d, List.mem_map.2 ⟨_, Dict.mem_of_get? _ hd, rfl⟩, ?_, ?_⟩
    · rw [e1]; exact hk'
    · rw [e2]; exact hi'

/-! ## Termination -/

theorem addGridPoint_ok (t : Topology) (hash : DemandHash) (demand : ℚ) {lon lat : ℚ}
    (h1 : -90 ≤ lat) (h2 : lat ≤ 90) (h3 : -180 ≤ lon) (h4 : lon ≤ 180) :
    ∃ t', t.addGridPoint hash demand lon lat = (t', none) := by
  unfold addGridPoint
  rw [if_pos ⟨h1, h2, h3, h4⟩]
  exact ⟨_, rfl⟩

theorem latLoop_ok {hash : DemandHash} {demand : ℚ} {g : Grid} (hdy : 0 < g.dy)
    (htop : g.top ≤ 90) {lon : ℚ} (h3 : -180 ≤ lon) (h4 : lon ≤ 180) :
    ∀ (n fuel : Nat) (t : Topology) (lat : ℚ), -90 ≤ lat → g.top < lat + n * g.dy → n < fuel →
    ∃ t', latLoop hash demand g lon fuel t lat = some (t', none) := by
  intro n
  induction n with
  | zero =>
    intro fuel t lat hlat h hf
    obtain ⟨k, rfl⟩ := Nat.exists_eq_succ_of_ne_zero (Nat.pos_iff_ne_zero.1 hf)
    rw [Nat.cast_zero, zero_mul, add_zero] at h
    unfold latLoop
    rw [if_neg (by linarith)]
    exact ⟨t, rfl⟩
  | succ n ih =>
    intro fuel t lat hlat h hf
    obtain ⟨k, rfl⟩ := Nat.exists_eq_succ_of_ne_zero (Nat.pos_iff_ne_zero.1 (Nat.lt_of_le_of_lt (Nat.zero_le _) hf))
    unfold latLoop
    by_cases c : lat ≤ g.top
    · rw [if_pos c]
      obtain ⟨t1, h1⟩ := addGridPoint_ok t hash demand hlat (by linarith) h3 h4
      rw [h1]
      refine ih k t1 (lat + g.dy) (by linarith) ?_ (Nat.lt_of_succ_lt_succ hf)
      push_cast at h
      linarith
    · rw [if_neg c]
      exact ⟨t, rfl⟩

theorem wrapLon_range {x dx : ℚ} (h1 : -180 ≤ x) (h2 : x ≤ 180) (h3 : 0 < dx) (h4 : dx ≤ 360) :
    -180 ≤ wrapLon (x + dx) ∧ wrapLon (x + dx) ≤ 180 := by
  unfold wrapLon
  split <;> constructor <;> linarith

theorem lonLoop_ok {hash : DemandHash} {demand : ℚ} {g : Grid} (hdx : 0 < g.dx) (hdx' : g.dx ≤ 360)
    (hdy : 0 < g.dy) (htop : g.top ≤ 90) (hbot : -90 ≤ g.bottom) {rounds n : Nat}
    (hn : g.top < g.bottom + n * g.dy) (hr : n < rounds) :
    ∀ (k fuel : Nat) (t : Topology) (x : ℚ), -180 ≤ x → x ≤ 180 →
      g.more (lonAt g.dx k x) = false → k < fuel →
      ∃ t', lonLoop hash demand g rounds fuel t x = some (t', none) := by
  intro k
  induction k with
  | zero =>
    intro fuel t x h1 h2 h hf
    obtain ⟨m, rfl⟩ := Nat.exists_eq_succ_of_ne_zero (Nat.pos_iff_ne_zero.1 hf)
    unfold lonAt at h
    unfold lonLoop
    rw [if_neg (by rw [h]; exact Bool.false_ne_true)]
    exact ⟨t, rfl⟩
  | succ k ih =>
    intro fuel t x h1 h2 h hf
    obtain ⟨m, rfl⟩ := Nat.exists_eq_succ_of_ne_zero (Nat.pos_iff_ne_zero.1 (Nat.lt_of_le_of_lt (Nat.zero_le _) hf))
    unfold lonLoop
    by_cases c : g.more x = true
    · rw [if_pos c]
      obtain ⟨t1, ht1⟩ := latLoop_ok (hash := hash) (demand := demand) hdy htop h1 h2 n rounds t g.bottom hbot hn hr
      rw [ht1]
      obtain ⟨r1, r2⟩ := wrapLon_range h1 h2 hdx hdx'
      exact ih m t1 _ r1 r2 h (Nat.lt_of_succ_lt_succ hf)
    · rw [if_neg c]
      exact ⟨t, rfl⟩

/-- With points in range the outer loop cannot raise: it hangs if its condition
holds for every longitude. -/
theorem lonLoop_hangs {hash : DemandHash} {demand : ℚ} {g : Grid} (hdx : 0 < g.dx) (hdx' : g.dx ≤ 360)
    (htop : g.top ≤ 90) (hbot : -90 ≤ g.bottom) (hdy : 0 < g.dy)
    (all : ∀ x ≤ 180, g.more x = true) {rounds : Nat} : ∀ (fuel : Nat) (t : Topology) (x : ℚ),
    -180 ≤ x → x ≤ 180 → lonLoop hash demand g rounds fuel t x = none := by
  have lat : ∀ (rounds : Nat) (t : Topology) (x lat : ℚ), -180 ≤ x → x ≤ 180 → -90 ≤ lat →
      ∀ o, latLoop hash demand g x rounds t lat = some o → o.2 = none := by
    intro rounds
    induction rounds with
    | zero => intro t x lat _ _ _ o h; unfold latLoop at h; cases h
    | succ n ih =>
      intro t x lat h1 h2 h3 o h
      unfold latLoop at h
      by_cases c : lat ≤ g.top
      · rw [if_pos c] at h
        obtain ⟨t1, ht1⟩ := addGridPoint_ok t hash demand h3 (by linarith) h1 h2
        rw [ht1] at h
        exact ih t1 x (lat + g.dy) h1 h2 (by linarith) o h
      · rw [if_neg c] at h
        cases h
        rfl
  intro fuel
  induction fuel with
  | zero => intro t x _ _; rfl
  | succ n ih =>
    intro t x h1 h2
    unfold lonLoop
    rw [if_pos (all x h2)]
    have hl := lat rounds t x g.bottom h1 h2 hbot
    generalize latLoop hash demand g x rounds t g.bottom = o at hl
    cases o with
    | none => rfl
    | some o =>
      obtain ⟨t1, e⟩ := o
      have := hl _ rfl
      dsimp only at this
      subst this
      obtain ⟨r1, r2⟩ := wrapLon_range h1 h2 hdx hdx'
      exact ih t1 _ r1 r2

theorem first_beyond {lo hi d : ℚ} (hd : 0 < d) (h : lo ≤ hi) :
    ∃ k : ℕ, hi < lo + k * d ∧ lo + k * d ≤ hi + d := by
  have h0 : 0 ≤ (hi - lo) / d := div_nonneg (by linarith) hd.le
  have a := Nat.floor_le h0
  have b := Nat.lt_floor_add_one ((hi - lo) / d)
  generalize ⌊(hi - lo) / d⌋₊ = n at a b
  rw [le_div_iff₀ hd] at a
  rw [div_lt_iff₀ hd] at b
  refine ⟨n + 1, ?_, ?_⟩ <;> push_cast <;> linarith

theorem gridOf_some {t : Topology} {id : SiteId} {s : Site} (h : t.sites.get? id = some s) (dx dy : ℚ) :
    ∃ g, t.gridOf dx dy = some g := by
  have hv := site_vals_of h
  have ne : t.sites.vals.map (·.lat) ≠ [] := by
    intro c
    rw [List.map_eq_nil_iff] at c
    rw [c] at hv
    cases hv
  have key : ∀ l : List ℚ, l ≠ [] → (∃ a, pyMin l = some a) ∧ ∃ a, pyMax l = some a := by
    intro l hl
    constructor
    · cases hm : pyMin l with
      | none => exact absurd ((pyMin_none l).1 hm) hl
      | some a => exact ⟨a, rfl⟩
    · cases hm : pyMax l with
      | none => exact absurd ((pyMax_none l).1 hm) hl
      | some a => exact ⟨a, rfl⟩
  have ne1 : (t.sites.vals.filter (fun s => !t.antimeridian || decide (s.lon ≥ 175))).map (·.lon) ≠ [] ∧
      (t.sites.vals.filter (fun s => !t.antimeridian || decide (s.lon ≤ -175))).map (·.lon) ≠ [] := by
    cases ha : t.antimeridian with
    | false =>
      constructor <;>
      · intro c
        rw [List.map_eq_nil_iff, List.filter_eq_nil_iff] at c
        exact c s hv rfl
    | true =>
      unfold antimeridian at ha
      rw [Bool.and_eq_true, List.any_eq_true, List.any_eq_true] at ha
      obtain ⟨⟨a, ha1, ha2⟩, b, hb1, hb2⟩ := ha
      constructor
      · intro c
        rw [List.map_eq_nil_iff, List.filter_eq_nil_iff] at c
        exact c a ha1 ha2
      · intro c
        rw [List.map_eq_nil_iff, List.filter_eq_nil_iff] at c
        exact c b hb1 hb2
  obtain ⟨l, hl⟩ := (key _ ne1.1).1
  obtain ⟨r, hr⟩ := (key _ ne1.2).2
  obtain ⟨b, hb⟩ := (key _ ne).1
  obtain ⟨u, hu⟩ := (key _ ne).2
  unfold gridOf
  rw [hl, hr, hb, hu]
  exact ⟨_, rfl⟩

/-- The sites leave room for the buffer around them: one grid step to the poles
and to the west, two to the east; a set of sites around the antimeridian needs
no room there. -/
structure Room (t : Topology) (dx dy : ℚ) : Prop where
  lon : ∀ id s, t.sites.get? id = some s → -180 ≤ s.lon ∧ s.lon ≤ 180
  lat : ∀ id s, t.sites.get? id = some s → -90 + dy ≤ s.lat ∧ s.lat + dy ≤ 90
  edge : ¬ Crossing t → ∀ id s, t.sites.get? id = some s → -180 + dx ≤ s.lon ∧ s.lon + 2 * dx ≤ 180

/-- C58, termination, for sites with room around them. Missing: sites near the
antimeridian on one side only (`C58_hangs_violation`, `C58_west_violation`) or
next to a pole. -/
theorem C58_returns_partial (ops : List Op) (hash : DemandHash) (demand dx dy : ℚ)
    (hdx : 0 < dx) (hdx' : dx ≤ 100) (hdy : 0 < dy) (room : Room (run {} ops) dx dy)
    (id0 : SiteId) (s0 : Site) (h0 : (run {} ops).sites.get? id0 = some s0) :
    ∃ n, ∀ fuel ≥ n, ∃ t', (run {} ops).addUniform hash demand dx dy fuel = some (t', none) := by
  have inv := Inv.empty.run ops
  generalize run {} ops = t at *
  obtain ⟨g, hg⟩ := gridOf_some h0 dx dy
  have sp := gridOf_spec hg
  have get : ∀ s ∈ t.sites.vals, ∃ id, t.sites.get? id = some s := by
    intro s hs
    obtain ⟨id, hm⟩ := mem_site_vals hs
    exact ⟨id, (Dict.mem_iff_get? inv.nd_sites _ _).1 hm⟩
  have anti_iff := antimeridian_iff inv.nd_sites
  have hbot : -90 ≤ g.bottom := by
    obtain ⟨s, hs, e⟩ := sp.bottom_at
    obtain ⟨id, hi⟩ := get s hs
    have := (room.lat id s hi).1
    linarith
  have htop : g.top ≤ 90 := by
    obtain ⟨s, hs, e⟩ := sp.top_at
    obtain ⟨id, hi⟩ := get s hs
    have := (room.lat id s hi).2
    linarith
  have hbt : g.bottom ≤ g.top := by
    have h1 := sp.bottom_le s0 (site_vals_of h0)
    have h2 := sp.top_ge s0 (site_vals_of h0)
    linarith
  obtain ⟨n, hn, _⟩ := first_beyond hdy hbt
  have hk : ∃ k, g.more (lonAt g.dx k g.left) = false ∧ -180 ≤ g.left ∧ g.left ≤ 180 := by
    obtain ⟨sl, hsl, hsl', el⟩ := sp.left_at
    obtain ⟨sr, hsr, hsr', er⟩ := sp.right_at
    obtain ⟨il, hil⟩ := get sl hsl
    obtain ⟨ir, hir⟩ := get sr hsr
    have vl := room.lon _ _ hil
    have vr := room.lon _ _ hir
    rw [sp.edx]
    by_cases hc : Crossing t
    · have hanti := anti_iff.2 hc
      rw [hanti] at hsl' hsr'
      have hsl'' : 175 ≤ sl.lon := by
        rcases hsl' with c | c
        · cases c
        · exact c
      have hsr'' : sr.lon ≤ -175 := by
        rcases hsr' with c | c
        · cases c
        · exact c
      obtain ⟨k, k1, k2⟩ := first_beyond hdx (show g.left ≤ g.right + 360 by linarith)
      refine ⟨k, ?_, by linarith, by linarith⟩
      rw [← Bool.not_eq_true, more_iff, lonAt_wrap hdx k _ (by linarith) (by linarith)]
      unfold wrapLon
      rw [if_pos (by linarith)]
      rintro (c | ⟨_, c⟩) <;> linarith
    · have hanti : t.antimeridian = false := by
        rw [← Bool.not_eq_true, anti_iff]; exact hc
      have e1 := room.edge hc _ _ hil
      have e2 := room.edge hc _ _ hir
      have h1 := sp.left_le sr hsr (Or.inl hanti)
      obtain ⟨k, k1, k2⟩ := first_beyond hdx (show g.left ≤ g.right by linarith)
      refine ⟨k, ?_, by linarith, by linarith⟩
      rw [← Bool.not_eq_true, more_iff, lonAt_flat hdx k _ (by linarith), sp.anti, hanti]
      rintro (c | ⟨c, _⟩)
      · linarith
      · cases c
  obtain ⟨k, hk, hl1, hl2⟩ := hk
  refine ⟨max n k + 1, ?_⟩
  intro fuel hf
  unfold addUniform
  rw [hg]
  exact lonLoop_ok (by rw [sp.edx]; exact hdx) (by rw [sp.edx]; linarith) (by rw [sp.edy]; exact hdy) htop hbot
    (by rw [sp.edy]; exact hn) (Nat.lt_of_le_of_lt (Nat.le_max_left n k) hf) k fuel t g.left hl1 hl2 hk
    (Nat.lt_of_le_of_lt (Nat.le_max_right n k) hf)

/-- C58 fails: if the buffer east of the easternmost site reaches longitude 180
and there is no site across the antimeridian, the loop wraps round and never
ends, whatever the number of rounds it is given. -/
theorem C58_hangs_violation (ops : List Op) (hash : DemandHash) (demand dx dy : ℚ)
    (hdx : 0 < dx) (hdx' : dx ≤ 180) (hdy : 0 < dy) (hnc : ¬ Crossing (run {} ops))
    (lat : ∀ id s, (run {} ops).sites.get? id = some s → -90 + dy ≤ s.lat ∧ s.lat + dy ≤ 90)
    (lon : ∀ id s, (run {} ops).sites.get? id = some s → -180 + dx ≤ s.lon ∧ s.lon ≤ 180)
    (id0 : SiteId) (s0 : Site) (h0 : (run {} ops).sites.get? id0 = some s0) (east : 180 ≤ s0.lon + dx) :
    ∀ fuel, (run {} ops).addUniform hash demand dx dy fuel = none := by
  have inv := Inv.empty.run ops
  generalize run {} ops = t at *
  obtain ⟨g, hg⟩ := gridOf_some h0 dx dy
  have sp := gridOf_spec hg
  have get : ∀ s ∈ t.sites.vals, ∃ id, t.sites.get? id = some s := by
    intro s hs
    obtain ⟨id, hm⟩ := mem_site_vals hs
    exact ⟨id, (Dict.mem_iff_get? inv.nd_sites _ _).1 hm⟩
  have hanti : t.antimeridian = false := by
    rw [← Bool.not_eq_true, antimeridian_iff inv.nd_sites]; exact hnc
  have hbot : -90 ≤ g.bottom := by
    obtain ⟨s, hs, e⟩ := sp.bottom_at
    obtain ⟨id, hi⟩ := get s hs
    have := (lat id s hi).1
    linarith
  have htop : g.top ≤ 90 := by
    obtain ⟨s, hs, e⟩ := sp.top_at
    obtain ⟨id, hi⟩ := get s hs
    have := (lat id s hi).2
    linarith
  have hr := sp.right_ge s0 (site_vals_of h0) (Or.inl hanti)
  obtain ⟨sl, hsl, _, el⟩ := sp.left_at
  obtain ⟨il, hil⟩ := get sl hsl
  have vl := lon _ _ hil
  intro fuel
  unfold addUniform
  rw [hg]
  refine lonLoop_hangs (by rw [sp.edx]; exact hdx) (by rw [sp.edx]; linarith) htop hbot
    (by rw [sp.edy]; exact hdy) ?_ fuel t g.left (by linarith) (by linarith)
  intro x hx
  rw [more_iff]
  left; linarith

/-- C58 fails on the other side: if the buffer west of the westernmost site
passes longitude -180, an exception is raised. -/
theorem C58_west_violation (ops : List Op) (hash : DemandHash) (demand dx dy : ℚ)
    (hdx : 0 < dx) (hdy : 0 < dy) (hnc : ¬ Crossing (run {} ops))
    (id0 : SiteId) (s0 : Site) (h0 : (run {} ops).sites.get? id0 = some s0) (west : s0.lon - dx < -180) :
    ∀ fuel, ∃ t', (run {} ops).addUniform hash demand dx dy (fuel + 1) = some (t', some .geoSystem) := by
  have inv := Inv.empty.run ops
  generalize run {} ops = t at *
  obtain ⟨g, hg⟩ := gridOf_some h0 dx dy
  have sp := gridOf_spec hg
  have hanti : t.antimeridian = false := by
    rw [← Bool.not_eq_true, antimeridian_iff inv.nd_sites]; exact hnc
  have h1 := sp.left_le s0 (site_vals_of h0) (Or.inl hanti)
  have h2 := sp.right_ge s0 (site_vals_of h0) (Or.inl hanti)
  have h3 := sp.bottom_le s0 (site_vals_of h0)
  have h4 := sp.top_ge s0 (site_vals_of h0)
  intro fuel
  refine ⟨t, ?_⟩
  unfold addUniform
  rw [hg]
  dsimp only
  unfold lonLoop
  rw [if_pos ((more_iff _ _).2 (Or.inl (by linarith)))]
  unfold latLoop
  rw [if_pos (by linarith)]
  unfold addGridPoint
  rw [if_neg (by rintro ⟨_, _, c, _⟩; linarith)]

/-- One DN a thousandth of a degree from the antimeridian, and one further west. -/
def edgeDemo (lon : ℚ) : List Op := [
  .addSite { id := "A", siteType := .dn, status := .candidate, lon := lon, lat := 52 } false,
  .addSite { id := "B", siteType := .dn, status := .candidate, lon := lon - 1 / 100, lat := 52 } false]

theorem edgeDemo_sites (lon : ℚ) :
    (run {} (edgeDemo lon)).sites =
      [("A", { id := "A", siteType := .dn, status := .candidate, lon := lon, lat := 52 }),
       ("B", { id := "B", siteType := .dn, status := .candidate, lon := lon - 1 / 100, lat := 52 })] := rfl

theorem edgeDemo_get {lon : ℚ} {id : SiteId} {s : Site}
    (h : (run {} (edgeDemo lon)).sites.get? id = some s) :
    s.lat = 52 ∧ (s.lon = lon ∨ s.lon = lon - 1 / 100) := by
  have h := Dict.mem_of_get? _ h
  rw [edgeDemo_sites] at h
  simp only [List.mem_cons, Prod.mk.injEq, List.not_mem_nil, or_false] at h
  rcases h with ⟨_, rfl⟩ | ⟨_, rfl⟩
  · exact ⟨rfl, Or.inl rfl⟩
  · exact ⟨rfl, Or.inr rfl⟩

example : ∀ fuel, (run {} (edgeDemo (179 + 999 / 1000))).addUniform (fun _ _ => "") 1 (1 / 500) (1 / 1000) fuel
    = none := by
  refine C58_hangs_violation _ _ _ _ _ (by norm_num) (by norm_num) (by norm_num) ?_ ?_ ?_ "A" _ rfl
    (by norm_num)
  · rintro ⟨_, id, s, h, h'⟩
    obtain ⟨_, e | e⟩ := edgeDemo_get h <;> rw [e] at h' <;> norm_num at h'
  · intro id s h
    rw [(edgeDemo_get h).1]
    norm_num
  · intro id s h
    obtain ⟨_, e | e⟩ := edgeDemo_get h <;> rw [e] <;> norm_num

example : ∃ n, ∀ fuel ≥ n, ∃ t', (run {} (edgeDemo 10)).addUniform (fun _ _ => "") 1 (1 / 500) (1 / 1000) fuel
    = some (t', none) := by
  refine C58_returns_partial _ _ _ _ _ (by norm_num) (by norm_num) (by norm_num) ⟨?_, ?_, ?_⟩ "A" _ rfl
  · intro id s h
    obtain ⟨_, e | e⟩ := edgeDemo_get h <;> rw [e] <;> norm_num
  · intro id s h
    rw [(edgeDemo_get h).1]
    norm_num
  · intro _ id s h
    obtain ⟨_, e | e⟩ := edgeDemo_get h <;> rw [e] <;> norm_num

/-- An injective position id. -/
def unaryHash : DemandHash := fun a b => String.ofList (List.replicate (Encodable.encode (a, b)) 'x')

example : HashInj unaryHash := by
  intro a b c d h
  have h1 := congrArg (fun s => s.toList.length) h
  unfold unaryHash at h1
  simp only [String.toList_ofList, List.length_replicate] at h1
  have h2 := Encodable.encode_injective h1
  exact ⟨congrArg Prod.fst h2, congrArg Prod.snd h2⟩

example : InBox (run {} (edgeDemo 10)) (9 + 995 / 1000) 52 := by
  refine ⟨⟨"A", "B", _, _, rfl, rfl, by norm_num, by norm_num⟩, Or.inl ⟨?_, "B", "A", _, _, rfl, rfl,
    by norm_num, by norm_num⟩⟩
  rintro ⟨⟨id, s, h, h'⟩, _⟩
  obtain ⟨_, e | e⟩ := edgeDemo_get h <;> rw [e] at h' <;> norm_num at h'

end Topology
end Verif
