import Verif.Model.LosInput
import Verif.Props.LosConf

/-!
# Where the sites of the LOS phase are
-/

namespace Verif
open LosGeom

/-- The height above the surface at which an input site is mounted if the user gives no altitude. -/
def mountHeight (C : InferCfg) (g : GivenSite) (loc : LocationType) : ℚ :=
  match g.height, loc, g.typ with
  | some h, _, _ => h
  | none, .rooftop, _ => C.mounting
  | none, _, .pop => C.popHeight
  | none, _, .dn => C.dnHeight
  | none, _, .cn => C.cnHeight

/-- **C107.** What the user gives is never changed: neither an altitude nor a location type. Without surface elevation
nothing is added. With it, a missing altitude is the elevation of the surface and the given height, or else the
mounting height on a rooftop and the default height of the type of the site elsewhere; and an unknown location type
becomes, if there is terrain elevation as well, rooftop exactly where the surface is at least two metres above the
terrain and street level elsewhere. A building is recorded exactly for rooftop sites, and it is the unknown one. -/
theorem C107_input_sites (C : InferCfg) (g : GivenSite) :
    ((g.place C).x = g.x ∧ (g.place C).y = g.y)
    ∧ (∀ z, g.alt = some z → (g.place C).alt = some z)
    ∧ (g.loc ≠ .unknown → (g.place C).loc = g.loc)
    ∧ (C.surface = none → (g.place C).alt = g.alt ∧ (g.place C).loc = g.loc)
    ∧ (∀ s, C.surface = some s → g.alt = none →
        (g.place C).alt = some (s g.x g.y + mountHeight C g (g.place C).loc))
    ∧ (∀ s, C.surface = some s → g.loc = .unknown →
        (C.terrain = none → (g.place C).loc = .unknown)
        ∧ ∀ t, C.terrain = some t →
          ((g.place C).loc = .rooftop ↔ t g.x g.y + 2 ≤ s g.x g.y)
          ∧ ((g.place C).loc = .streetLevel ↔ s g.x g.y < t g.x g.y + 2))
    ∧ (((g.place C).loc = .rooftop ↔ (g.place C).building ≠ none)
        ∧ ∀ b, (g.place C).building = some b → b = -1) := by
  have hloc : (g.place C).loc = (inferLocation C g).2 := rfl
  have halt : (g.place C).alt = (inferLocation C g).1 := rfl
  have e2 : ∀ s, C.surface = some s → (inferLocation C g).2 = if g.loc = .unknown then
      (match C.terrain with
      | some terrain => if s g.x g.y - terrain g.x g.y ≥ 2 then .rooftop else .streetLevel
      | none => g.loc) else g.loc := by
    intro s hs
    unfold inferLocation
    rw [hs]
    dsimp only
    generalize (if g.loc = .unknown then
      (match C.terrain with
      | some terrain => if s g.x g.y - terrain g.x g.y ≥ 2 then LocationType.rooftop else .streetLevel
      | none => g.loc) else g.loc) = L
    rcases g.alt with _ | z <;> rcases g.height with _ | h <;> cases L <;> cases g.typ <;> rfl
  refine ⟨⟨rfl, rfl⟩, ?_, ?_, ?_, ?_, ?_, ?_, ?_⟩
  · intro z hz
    rw [halt]
    unfold inferLocation
    rw [hz]
    cases C.surface <;> rfl
  · intro h
    rw [hloc]
    cases hs : C.surface with
    | none => unfold inferLocation; rw [hs]
    | some s => rw [e2 s hs, if_neg h]
  · intro h
    rw [hloc, halt]
    unfold inferLocation
    rw [h]
    exact ⟨rfl, rfl⟩
  · intro s hs hz
    rw [halt, hloc, e2 s hs]
    unfold inferLocation
    rw [hs, hz]
    dsimp only
    generalize (if g.loc = .unknown then
      (match C.terrain with
      | some terrain => if s g.x g.y - terrain g.x g.y ≥ 2 then LocationType.rooftop else .streetLevel
      | none => g.loc) else g.loc) = L
    unfold mountHeight
    cases g.height with
    | some h => rfl
    | none => cases L <;> cases g.typ <;> rfl
  · intro s hs hu
    rw [hloc, e2 s hs, if_pos hu]
    constructor
    · intro ht
      rw [ht]
      exact hu
    · intro t ht
      rw [ht]
      dsimp only
      constructor
      · split_ifs with c
        · simp only [true_iff]; linarith
        · simp only [reduceCtorEq, false_iff]; intro h; exact c (by linarith)
      · split_ifs with c
        · simp only [reduceCtorEq, false_iff]; intro h; linarith
        · simp only [true_iff]; push Not at c; linarith
  · rw [hloc]
    unfold GivenSite.place
    dsimp only
    split_ifs with c <;> simp [c]
  · intro b hb
    unfold GivenSite.place at hb
    dsimp only at hb
    split_ifs at hb
    simp only [Option.some.injEq] at hb
    exact hb.symm

/-- A site on a roof of which only the place is known. -/
example : (GivenSite.mk 0 0 none none .unknown .dn).place ⟨some fun _ _ => 12, some fun _ _ => 2, 3 / 2, 5, 4, 2⟩
    = ⟨0, 0, some (27 / 2), .rooftop, some (-1)⟩ := by decide +kernel

namespace LosInput

theorem highestLoop_spec (inside : Spot → Bool) : ∀ (L : List Spot) (h : Option Spot),
    (∀ s ∈ highestLoop inside h L, h = some s ∨ (s ∈ L ∧ inside s = true))
    ∧ (∀ s, h = some s → ∃ s' ∈ highestLoop inside h L, s.z ≤ s'.z)
    ∧ (∀ c ∈ L, inside c = true → ∃ s' ∈ highestLoop inside h L, c.z ≤ s'.z)
  | [], h => by
    refine ⟨fun s hs => .inl hs, fun s hs => ⟨s, hs, le_refl _⟩, ?_⟩
    intro c hc
    cases hc
  | c :: L, h => by
    unfold highestLoop
    dsimp only
    obtain ⟨a, b, d⟩ := highestLoop_spec inside L
      (if (match h with | none => true | some s => decide (c.z > s.z)) && inside c then some c else h)
    refine ⟨?_, ?_, ?_⟩
    · intro s hs
      rcases a s hs with e | ⟨e, f⟩
      · split_ifs at e with q
        · simp only [Option.some.injEq] at e
          subst e
          rw [Bool.and_eq_true] at q
          exact .inr ⟨List.mem_cons_self, q.2⟩
        · exact .inl e
      · exact .inr ⟨List.mem_cons_of_mem _ e, f⟩
    · intro s hs
      subst hs
      dsimp only at b ⊢
      split_ifs at b ⊢ with q
      · obtain ⟨s', h1, h2⟩ := b c rfl
        rw [Bool.and_eq_true, decide_eq_true_eq] at q
        exact ⟨s', h1, q.1.le.trans h2⟩
      · exact b s rfl
    · intro x hx hi
      rcases List.mem_cons.1 hx with rfl | hx
      · cases h with
        | none =>
          dsimp only at b ⊢
          rw [hi] at b ⊢
          exact b x rfl
        | some s =>
          dsimp only at b ⊢
          rw [hi] at b ⊢
          simp only [Bool.and_true, decide_eq_true_eq] at b ⊢
          split_ifs at b ⊢ with q
          · exact b x rfl
          · obtain ⟨s', h1, h2⟩ := b s rfl
            exact ⟨s', h1, (not_lt.1 q).trans h2⟩
      · exact d x hx hi

theorem someCorners_spec (c : List Spot) :
    (someCorners c).Sublist c ∧ (someCorners c).length = min 3 c.length := by
  unfold someCorners
  split_ifs with h
  · exact ⟨List.Sublist.refl _, by omega⟩
  · push Not at h
    have h0 : 1 ≤ c.length / 3 := by omega
    have h1 : 2 * (c.length / 3) < c.length := by omega
    set k := c.length / 3 with hk
    have e : (List.range 3).filterMap (fun i => c[i * k]?) = [c[0], c[k], c[2 * k]] := by
      simp only [List.range_succ, List.range_zero, List.nil_append, List.filterMap_append, List.filterMap_cons,
        List.filterMap_nil, Nat.zero_mul, Nat.one_mul]
      rw [List.getElem?_eq_getElem (by omega : 0 < c.length), List.getElem?_eq_getElem (by omega : k < c.length),
        List.getElem?_eq_getElem h1]
      rfl
    rw [e]
    refine ⟨?_, by simp; omega⟩
    rw [List.sublist_iff_exists_fin_orderEmbedding_get_eq]
    have lt : ∀ i : Fin 3, i.1 * k < c.length := by
      intro i
      have : i.1 * k ≤ 2 * k := Nat.mul_le_mul_right k (by omega)
      omega
    refine ⟨OrderEmbedding.ofStrictMono (fun i : Fin 3 => (⟨i.1 * k, lt i⟩ : Fin c.length)) ?_, ?_⟩
    · intro i j hij
      exact Nat.mul_lt_mul_of_pos_right hij (by omega)
    · intro i
      match i with
      | ⟨0, _⟩ => show c[0] = c[0 * k]'(lt 0); simp
      | ⟨1, _⟩ => show c[k] = c[1 * k]'(lt 1); simp
      | ⟨2, _⟩ => rfl

theorem mem_detectSites {D : DetectCfg} {surface : Bool} {mounting : ℚ} {s : LosSite} :
    ∀ {roofs : List Roof} {k : Nat}, s ∈ detectSites D surface mounting k roofs ↔
      ∃ (i : Nat) (r : Roof), roofs[i]? = some r ∧ ∃ p ∈ r.spots D surface, s = p.place surface mounting (k + i)
  | [], k => by simp [detectSites]
  | r :: roofs, k => by
    unfold detectSites
    rw [List.mem_append, mem_detectSites (roofs := roofs), List.mem_map]
    constructor
    · rintro (⟨p, hp, rfl⟩ | ⟨i, r', hr, p, hp, rfl⟩)
      · exact ⟨0, r, rfl, p, hp, rfl⟩
      · exact ⟨i + 1, r', by simpa using hr, p, hp, by rw [Nat.add_assoc, Nat.add_comm 1 i]⟩
    · rintro ⟨i, r', hr, p, hp, rfl⟩
      cases i with
      | zero =>
        simp only [List.getElem?_cons_zero, Option.some.injEq] at hr
        subst hr
        exact .inl ⟨p, hp, rfl⟩
      | succ i => exact .inr ⟨i, r', by simpa using hr, p, hp, by rw [Nat.add_assoc, Nat.add_comm 1 i]⟩

theorem detectSites_none {D : DetectCfg} {surface : Bool} {mounting : ℚ} {j : Int} :
    ∀ {roofs : List Roof} {k : Nat}, j < k →
      (detectSites D surface mounting k roofs).filter (fun s => s.building = some j) = []
  | roofs, k, h => by
    rw [List.filter_eq_nil_iff]
    intro s hs
    obtain ⟨i, r, _, p, _, rfl⟩ := mem_detectSites.1 hs
    simp only [Spot.place, Option.some.injEq, decide_eq_true_eq]
    push_cast
    omega

theorem detectSites_filter {D : DetectCfg} {surface : Bool} {mounting : ℚ} :
    ∀ {roofs : List Roof} {k i : Nat} {r : Roof}, roofs[i]? = some r →
      (detectSites D surface mounting k roofs).filter (fun s => s.building = some ((k + i : Nat) : Int))
        = (r.spots D surface).map (Spot.place surface mounting (k + i))
  | [], k, i, r, h => by simp at h
  | r' :: roofs, k, i, r, h => by
    unfold detectSites
    rw [List.filter_append]
    cases i with
    | zero =>
      simp only [List.getElem?_cons_zero, Option.some.injEq] at h
      subst h
      rw [detectSites_none (by push_cast; omega), List.append_nil, List.filter_eq_self.2]
      · rfl
      · intro s hs
        obtain ⟨p, _, rfl⟩ := List.mem_map.1 hs
        simp [Spot.place]
    | succ i =>
      have e : ((r'.spots D surface).map (Spot.place surface mounting k)).filter
          (fun s => s.building = some ((k + (i + 1) : Nat) : Int)) = [] := by
        rw [List.filter_eq_nil_iff]
        intro s hs
        obtain ⟨p, _, rfl⟩ := List.mem_map.1 hs
        simp only [Spot.place, Option.some.injEq, decide_eq_true_eq]
        push_cast
        omega
      rw [e, List.nil_append]
      have := detectSites_filter (D := D) (surface := surface) (mounting := mounting) (roofs := roofs) (k := k + 1)
        (i := i) (r := r) (by simpa using h)
      rw [show k + (i + 1) = k + 1 + i by omega]
      exact this

theorem cornerScan_spec (high : Nat × Nat → Bool) (cols : Nat) : ∀ (rows : List Nat),
    (∀ c ∈ cornerScan high cols rows, c.1 ∈ rows ∧ c.2 < cols ∧ high c = true)
    ∧ (cornerScan high cols rows = none → ∀ i ∈ rows, ∀ j < cols, high (i, j) = false)
  | [] => by simp [cornerScan]
  | i :: rows => by
    unfold cornerScan
    obtain ⟨h1, h2⟩ := cornerScan_spec high cols rows
    cases h : ((List.range cols).filter fun c => high (i, c)).getLast? with
    | some c =>
      have := List.mem_filter.1 (List.mem_of_getLast? h)
      refine ⟨?_, by simp⟩
      intro c' hc
      simp only [Option.mem_def, Option.some.injEq] at hc
      subst hc
      exact ⟨List.mem_cons_self, List.mem_range.1 this.1, this.2⟩
    | none =>
      rw [List.getLast?_eq_none_iff, List.filter_eq_nil_iff] at h
      dsimp only
      refine ⟨fun c hc => ⟨List.mem_cons_of_mem _ (h1 c hc).1, (h1 c hc).2⟩, ?_⟩
      intro hn x hx j hj
      rcases List.mem_cons.1 hx with rfl | hx
      · simpa using h j (List.mem_range.2 hj)
      · exact h2 hn x hx j hj

end LosInput

open LosInput

/-- A place that is to be detected on a roof: the centre or the highest place if asked for (the latter only with
elevation data), or one of the selected corners. -/
inductive Roof.Detected (D : DetectCfg) (surface : Bool) (r : Roof) : Spot → Prop
  | centre : D.centre = true → Detected D surface r r.centre
  | highest : D.highest = true → surface = true → Detected D surface r r.highest
  | corner {p : Spot} : D.corners = true → p ∈ someCorners r.corners → Detected D surface r p

/-- **C108.** The detected sites are exactly the places to be detected on the buildings, each recorded as rooftop site
with the number of its building and, with elevation data, at the mounting height above the place. On each building
there are at most the centre, the highest place and three corners, or all corners if there are at most three. -/
theorem C108_detected_sites (D : DetectCfg) (surface : Bool) (mounting : ℚ) (roofs : List Roof) :
    (∀ s, s ∈ detectSites D surface mounting 0 roofs ↔ ∃ (k : Nat) (r : Roof) (p : Spot), roofs[k]? = some r
        ∧ r.Detected D surface p ∧ s.x = p.x ∧ s.y = p.y ∧ s.loc = .rooftop ∧ s.building = some (k : Int)
        ∧ s.alt = if surface then some (p.z + mounting) else none)
    ∧ (∀ (k : Nat) r, roofs[k]? = some r →
        ((detectSites D surface mounting 0 roofs).filter fun s => s.building = some (k : Int)).length
          = (if D.centre then 1 else 0) + (if D.highest && surface then 1 else 0)
            + (if D.corners then min 3 r.corners.length else 0))
    ∧ (∀ r ∈ roofs, (someCorners r.corners).Sublist r.corners) := by
  have det : ∀ (r : Roof) (p : Spot), p ∈ r.spots D surface ↔ r.Detected D surface p := by
    intro r p
    unfold Roof.spots
    rw [List.mem_append, List.mem_append]
    constructor
    · rintro ((h | h) | h)
      · split_ifs at h with c
        · rw [List.mem_singleton] at h; subst h; exact .centre c
        · cases h
      · split_ifs at h with c
        · rw [List.mem_singleton] at h
          subst h
          rw [Bool.and_eq_true] at c
          exact .highest c.1 c.2
        · cases h
      · split_ifs at h with c
        · exact .corner c h
        · cases h
    · rintro (h | ⟨h, h'⟩ | ⟨h, h'⟩)
      · left; left; simp [h]
      · left; right; simp [h, h']
      · right; simp [h, h']
  refine ⟨?_, ?_, fun r _ => (someCorners_spec r.corners).1⟩
  · intro s
    rw [mem_detectSites]
    constructor
    · rintro ⟨k, r, hr, p, hp, rfl⟩
      exact ⟨k, r, p, hr, (det r p).1 hp, rfl, rfl, rfl, by simp [Spot.place], rfl⟩
    · rintro ⟨k, r, p, hr, hp, h1, h2, h3, h4, h5⟩
      refine ⟨k, r, hr, p, (det r p).2 hp, ?_⟩
      cases s
      simp only at h1 h2 h3 h4 h5
      subst h1 h2 h3 h4 h5
      simp [Spot.place]
  · intro k r hr
    have := detectSites_filter (D := D) (surface := surface) (mounting := mounting) (k := 0) hr
    rw [Nat.zero_add] at this
    rw [this, List.length_map]
    unfold Roof.spots
    rw [List.length_append, List.length_append]
    congr 1
    · congr 1 <;> split_ifs <;> rfl
    · split_ifs
      · exact (someCorners_spec r.corners).2
      · rfl

/-- **C108, highest place.** It is a grid cell on the building with the greatest elevation of these, or the centre if
there is none on the building. -/
theorem C108_highest (r : Roof) :
    (r.highest ∈ r.cells ∧ r.inside r.highest = true ∧ ∀ c ∈ r.cells, r.inside c = true → c.z ≤ r.highest.z)
    ∨ (r.highest = r.centre ∧ ∀ c ∈ r.cells, r.inside c = false) := by
  obtain ⟨a, _, d⟩ := highestLoop_spec r.inside r.cells none
  unfold Roof.highest
  cases h : highestLoop r.inside none r.cells with
  | none =>
    right
    refine ⟨rfl, ?_⟩
    intro c hc
    by_contra hi
    obtain ⟨s', hs, _⟩ := d c hc (by simpa using hi)
    rw [h] at hs
    cases hs
  | some s =>
    left
    rcases a s (by rw [h]; rfl) with e | ⟨e, f⟩
    · cases e
    · refine ⟨e, f, ?_⟩
      intro c hc hi
      obtain ⟨s', hs, hle⟩ := d c hc hi
      rw [h] at hs
      simp only [Option.mem_def, Option.some.injEq] at hs
      subst hs
      exact hle

/-- **C108, corners.** The altitude of a corner is the elevation of a cell close to it that is more than two metres
above a neighbouring one, or the elevation at the corner itself if there is no such cell. -/
theorem C108_corner_altitude (rows cols : Nat) (m : Nat → Nat → ℚ) (here : ℚ) :
    let Edge := fun i j => i < rows ∧ j < cols ∧ ∃ i' < rows, ∃ j' < cols,
      (i' ≤ i + 1 ∧ i ≤ i' + 1) ∧ (j' ≤ j + 1 ∧ j ≤ j' + 1) ∧ (i', j') ≠ (i, j) ∧ m i' j' + 2 < m i j
    (∃ i j, Edge i j ∧ cornerAltitude rows cols m here = m i j)
    ∨ ((∀ i j, ¬ Edge i j) ∧ cornerAltitude rows cols m here = here) := by
  intro Edge
  have hh : ∀ i j, i < rows → j < cols → (cornerHigh rows cols m (i, j) = true ↔ Edge i j) := by
    intro i j hi hj
    unfold cornerHigh
    simp only [List.any_eq_true, List.mem_range, Bool.and_eq_true, decide_eq_true_eq, gt_iff_lt, ge_iff_le]
    constructor
    · rintro ⟨i', h1, j', h2, ⟨⟨⟨a, b⟩, c, d⟩, e⟩, f⟩
      exact ⟨hi, hj, i', h1, j', h2, ⟨b, a⟩, ⟨d, c⟩, e, by linarith⟩
    · rintro ⟨_, _, i', h1, j', h2, ⟨b, a⟩, ⟨d, c⟩, e, f⟩
      exact ⟨i', h1, j', h2, ⟨⟨⟨a, b⟩, c, d⟩, e⟩, by linarith⟩
  obtain ⟨h1, h2⟩ := cornerScan_spec (cornerHigh rows cols m) cols (List.range rows)
  unfold cornerAltitude
  cases h : cornerScan (cornerHigh rows cols m) cols (List.range rows) with
  | some c =>
    obtain ⟨a, b, d⟩ := h1 c (by rw [h]; rfl)
    exact .inl ⟨c.1, c.2, (hh c.1 c.2 (List.mem_range.1 a) b).1 d, rfl⟩
  | none =>
    right
    refine ⟨?_, rfl⟩
    intro i j he
    have := h2 h i (List.mem_range.2 he.1) j he.2.1
    rw [(hh i j he.1 he.2.1).2 he] at this
    cases this

/-- A roof with five corners of which three are used. -/
def roofDemo : Roof := ⟨⟨5, 5, 10⟩, [⟨4, 4, 11⟩, ⟨20, 20, 30⟩, ⟨5, 6, 12⟩], fun s => decide (s.x ≤ 10),
  [⟨0, 0, 9⟩, ⟨1, 0, 9⟩, ⟨10, 0, 9⟩, ⟨10, 10, 9⟩, ⟨0, 10, 9⟩]⟩

example : roofDemo.highest = ⟨5, 6, 12⟩
    ∧ detectSites ⟨true, true, true⟩ true 1 0 [roofDemo] = [⟨5, 5, some 11, .rooftop, some 0⟩,
      ⟨5, 6, some 13, .rooftop, some 0⟩, ⟨0, 0, some 10, .rooftop, some 0⟩, ⟨1, 0, some 10, .rooftop, some 0⟩,
      ⟨10, 0, some 10, .rooftop, some 0⟩] := by decide +kernel

/-- **C107, altitudes.** With surface elevation each site that enters the LOS phase has an altitude, as the computation
of the confidence requires. -/
theorem C107_altitudes_known (C : InferCfg) (D : DetectCfg) (given : List GivenSite) (roofs : List Roof) {f : ℚ → ℚ → ℚ}
    (hs : C.surface = some f) :
    ∀ s ∈ given.map (GivenSite.place C) ++ detectSites D C.surface.isSome C.mounting 0 roofs, s.alt ≠ none := by
  intro s h
  rcases List.mem_append.1 h with h | h
  · obtain ⟨g, _, rfl⟩ := List.mem_map.1 h
    obtain ⟨_, h1, _, _, h2, _⟩ := C107_input_sites C g
    cases hz : g.alt with
    | none => rw [h2 f hs hz]; exact Option.some_ne_none _
    | some z => rw [h1 z hz]; exact Option.some_ne_none _
  · obtain ⟨k, r, p, _, _, _, _, _, _, e⟩ := ((C108_detected_sites D C.surface.isSome C.mounting roofs).1 s).1 h
    rw [e, hs]
    exact Option.some_ne_none _

/-- **C28 (partial).** Two detected sites are taken to be on the same building exactly if they were detected on the same
building; a detected site and an input site never; and two input sites only if both are on a rooftop. Missing: two
input sites on the rooftops of different buildings (`C28_input_rooftops_violation`). -/
theorem C28_same_building_partial (C : InferCfg) (surface : Bool) (mounting : ℚ) :
    (∀ (k k' : Nat) (p p' : Spot),
      sameBuilding (p.place surface mounting k).real (p'.place surface mounting k').real ↔ k = k')
    ∧ (∀ (k : Nat) (p : Spot) (g : GivenSite), ¬ sameBuilding (p.place surface mounting k).real (g.place C).real
        ∧ ¬ sameBuilding (g.place C).real (p.place surface mounting k).real)
    ∧ (∀ g g' : GivenSite, sameBuilding (g.place C).real (g'.place C).real →
        (g.place C).loc = .rooftop ∧ (g'.place C).loc = .rooftop) := by
  refine ⟨?_, ?_, ?_⟩
  · intro k k' p p'
    unfold sameBuilding
    simp [LosSite.real, Spot.place]
  · intro k p g
    have hb := (C107_input_sites C g).2.2.2.2.2.2.2
    unfold sameBuilding
    constructor
    · rintro ⟨_, _, h⟩
      have := hb k h.symm
      omega
    · rintro ⟨_, _, h⟩
      have := hb k h
      omega
  · rintro g g' ⟨h1, h2, _⟩
    exact ⟨h1.trans h2, h2⟩

/-- **C28 fails for input sites.** Any two input sites on rooftops, wherever they are, are taken to be on the same
building, so that there is never a line of sight between them. -/
theorem C28_input_rooftops_violation (sort : List P3 → List P3) (V : Validator) (C : InferCfg) (g g' : GivenSite)
    (h : g.loc = .rooftop) (h' : g'.loc = .rooftop) :
    sameBuilding (g.place C).real (g'.place C).real ∧ confidence sort V (g.place C).real (g'.place C).real = 0 := by
  have l := (C107_input_sites C g).2.2.1 (by rw [h]; decide)
  have l' := (C107_input_sites C g').2.2.1 (by rw [h']; decide)
  have hs : sameBuilding (g.place C).real (g'.place C).real := by
    have b : (g.place C).building = some (-1) := by
      have : (inferLocation C g).2 = .rooftop := l.trans h
      unfold GivenSite.place
      simp [this]
    have b' : (g'.place C).building = some (-1) := by
      have : (inferLocation C g').2 = .rooftop := l'.trans h'
      unfold GivenSite.place
      simp [this]
    refine ⟨?_, l'.trans h', ?_⟩
    · show (g.place C).loc = (g'.place C).loc
      rw [l, l', h, h']
    · show (g.place C).building = (g'.place C).building
      rw [b, b']
  exact ⟨hs, confidence_zero fun c => c.2.1 hs⟩

/-- Two input sites on rooftops 100 m apart, with nothing in between, otherwise meet all conditions for a line of
sight. -/
example : (GivenSite.mk 0 0 (some 10) none .rooftop .dn).loc = .rooftop
    ∧ (GivenSite.mk 100 0 (some 10) none .rooftop .dn).loc = .rooftop := ⟨rfl, rfl⟩

end Verif
