import Verif.Props.LinkBudget

/-!
# Losses of a link and gains of an antenna (C146, C147)
-/

namespace Verif
namespace Budget
open Real

/-! ## C146 -/

/-- **C146.** More rain never means less rain loss, for a carrier of at least 20 GHz, links up to 10 km and rain of 0 or
at least 1 mm/h. -/
theorem C146_rain_partial (d R R' a f : ℝ) (hd : d ≤ 10) (hR : R = 0 ∨ 1 ≤ R) (hRR : R ≤ R') (hR' : R' = 0 ∨ 1 ≤ R')
    (hf : 20 ≤ f) (ha : a < 100) :
    ∃ u v, rainLoss d R a f = .ok u ∧ rainLoss d R' a f = .ok v ∧ 0 ≤ u ∧ u ≤ v := by
  by_cases h0 : d ≤ 0
  · exact ⟨0, 0, if_pos h0, if_pos h0, le_rfl, le_rfl⟩
  · have h0 := not_le.1 h0
    refine ⟨_, _, rainLoss_ok h0 hd hR hf ha, rainLoss_ok h0 hd hR' hf ha, le_max_right _ _, ?_⟩
    rcases hR with rfl | hR
    · rw [rain001_zero, zero_mul, max_self]
      exact le_max_right _ _
    · exact max_le_max (mul_le_mul_of_nonneg_right (rain001_rate h0 hd hR hRR hf) (rainShare_pos (by linarith)).le)
        le_rfl

theorem rainC0_range {f : ℝ} (hf : 20 ≤ f) (hf' : f ≤ 1000) : 0.12 ≤ rainC0 f ∧ rainC0 f ≤ 0.76 := by
  unfold rainC0
  have h0 : 0 < f / 10 := by linarith
  rw [logb_rpow_eq_mul_logb_of_pos h0]
  have h1 : 0 ≤ logb 10 (f / 10) := logb_nonneg (by norm_num) (by linarith)
  have h2 : logb 10 (f / 10) ≤ 2 := by
    rw [logb_le_iff_le_rpow (by norm_num) h0]
    norm_num
    linarith
  constructor <;> linarith

/-- The share as a power of ten. -/
theorem rainShare_ten {p f : ℝ} (hp : 0 < p) : rainShare p f = (0.07 : ℝ) ^ rainC0 f * (0.12 : ℝ) ^ (1 - rainC0 f) *
    10 ^ (-((0.855 * rainC0 f + 0.546 * (1 - rainC0 f)) * logb 10 p +
      (0.139 * rainC0 f + 0.043 * (1 - rainC0 f)) * logb 10 p ^ 2)) := by
  unfold rainShare
  congr 1
  conv_lhs => rw [← rpow_logb (b := 10) (by norm_num) (by norm_num) hp]
  rw [← rpow_mul (by norm_num)]
  congr 1
  rw [rpow_logb (by norm_num) (by norm_num) hp]
  ring

theorem rainShare_anti {p q f : ℝ} (hf : 20 ≤ f) (hf' : f ≤ 1000) (hp : 0.001 ≤ p) (hpq : p ≤ q) :
    rainShare q f ≤ rainShare p f := by
  have hp0 : 0 < p := by linarith
  obtain ⟨c1, c2⟩ := rainC0_range hf hf'
  rw [rainShare_ten hp0, rainShare_ten (hp0.trans_le hpq)]
  have hl : logb 10 p ≤ logb 10 q := logb_le_logb_of_le (by norm_num) hp0 hpq
  have hl3 : -3 ≤ logb 10 p := by
    rw [le_logb_iff_rpow_le (by norm_num) hp0]
    rw [show (10 : ℝ) ^ (-3 : ℝ) = 0.001 by
      rw [rpow_neg (by norm_num), show (3 : ℝ) = ((3 : ℕ) : ℝ) by norm_num, rpow_natCast]; norm_num]
    exact hp
  refine mul_le_mul_of_nonneg_left ?_ (by positivity)
  refine rpow_le_rpow_of_exponent_le (by norm_num) ?_
  generalize rainC0 f = c at *
  generalize logb 10 p = x at *
  generalize logb 10 q = y at *
  have key : 0 ≤ (y - x) * ((0.855 * c + 0.546 * (1 - c)) + (0.139 * c + 0.043 * (1 - c)) * (x + y)) := by
    refine mul_nonneg (by linarith) ?_
    have : -6 * (0.139 * c + 0.043 * (1 - c)) ≤ (0.139 * c + 0.043 * (1 - c)) * (x + y) := by
      rw [mul_comm]
      exact mul_le_mul_of_nonneg_left (by linarith) (by linarith)
    linarith
  nlinarith

/-- **C146.** Asking for more availability never means less rain loss, up to 99.999 percent, for carriers from 20 GHz to
1000 GHz, links up to 10 km and rain of 0 or at least 1 mm/h. The full claim has all availabilities that are accepted,
which is false, see below. -/
theorem C146_availability_partial (d R a a' f : ℝ) (hd : d ≤ 10) (hR : R = 0 ∨ 1 ≤ R) (hf : 20 ≤ f) (hf' : f ≤ 1000)
    (ha : a ≤ a') (ha' : a' ≤ 99.999) :
    ∃ u v, rainLoss d R a f = .ok u ∧ rainLoss d R a' f = .ok v ∧ u ≤ v := by
  by_cases h0 : d ≤ 0
  · exact ⟨0, 0, if_pos h0, if_pos h0, le_rfl⟩
  · have h0 := not_le.1 h0
    refine ⟨_, _, rainLoss_ok h0 hd hR hf (by linarith), rainLoss_ok h0 hd hR hf (by linarith), ?_⟩
    refine max_le_max (mul_le_mul_of_nonneg_left (rainShare_anti hf hf' (by linarith) (by linarith)) ?_) le_rfl
    rcases hR with rfl | hR
    · rw [rain001_zero]
    · have := rainDen_ge h0 hd hR hf
      have hden : 0 < rainDen d R f := lt_of_lt_of_le (by positivity) this
      unfold rain001
      positivity

/-- **C146 is false of the code:** an availability of 100 percent is accepted by the configuration (C114), but the link
budget then raises for every link, whatever the radio. -/
theorem C146_always_violation (d : ℝ) (hd : 0 < d) (tx : Radio) (txPat rxPat : Pattern) (rx : Option Radio)
    (dev : Deviations) (ha : tx.avail = 100) : ∀ g, netGain d tx txPat rx rxPat dev ≠ .ok g := by
  intro g h
  have hav : (100 : ℝ) - tx.avail ≤ 0 := by rw [ha]; norm_num
  have hl : ∀ R f x, 0 < x → ∀ u, rainLoss x R tx.avail f ≠ .ok u := by
    intro R f x hx u hu
    unfold rainLoss at hu
    rw [if_neg (not_le.2 hx)] at hu
    split at hu
    · cases hu
    · split at hu
      · cases hu
      · first
          | cases hu
          | rw [if_pos hav] at hu; cases hu
  unfold netGain at h
  dsimp only at h
  split at h
  · cases h
  · split at h
    · cases h
    · split at h
      · cases h
      · rename_i u hu
        exact hl _ _ _ (by positivity) u hu

/-- **C146 is false of the code:** at 100 GHz in rain of 30 mm/h, the rain loss of a link of 1 km for an availability of
99.99999999 percent is less than for 99.9999 percent. -/
theorem C146_nines_violation : ∃ u v, rainLoss 1 30 99.9999 100 = .ok u ∧ rainLoss 1 30 99.99999999 100 = .ok v ∧
    v < u := by
  have hden : 0 < rainDen 1 30 100 := lt_of_lt_of_le (by norm_num) (rainDen_ge (by norm_num) (by norm_num) (by norm_num)
    (by norm_num))
  have hr : 0 < rain001 1 30 100 := by
    unfold rain001
    positivity
  have hc : rainC0 100 = 0.44 := by
    unfold rainC0
    rw [logb_rpow_eq_mul_logb_of_pos (by norm_num), show (100 / 10 : ℝ) = 10 by norm_num, logb_self_eq_one (by norm_num)]
    norm_num
  have hlog : ∀ n : ℕ, logb 10 ((10 : ℝ) ^ (-(n : ℝ))) = -n := fun n => logb_rpow (by norm_num) (by norm_num)
  have e4 : (100 - 99.9999 : ℝ) = 10 ^ (-((4 : ℕ) : ℝ)) := by
    rw [rpow_neg (by norm_num), rpow_natCast]; norm_num
  have e8 : (100 - 99.99999999 : ℝ) = 10 ^ (-((8 : ℕ) : ℝ)) := by
    rw [rpow_neg (by norm_num), rpow_natCast]; norm_num
  have hs : rainShare (100 - 99.99999999) 100 < rainShare (100 - 99.9999) 100 := by
    rw [rainShare_ten (by norm_num), rainShare_ten (by norm_num), e4, e8, hlog, hlog, hc]
    refine mul_lt_mul_of_pos_left ?_ (by positivity)
    exact rpow_lt_rpow_of_exponent_lt (by norm_num) (by norm_num)
  have p4 : 0 < rainShare (100 - 99.9999) 100 := rainShare_pos (by norm_num)
  have p8 : 0 < rainShare (100 - 99.99999999) 100 := rainShare_pos (by norm_num)
  refine ⟨_, _, rainLoss_ok (by norm_num) (by norm_num) (Or.inr (by norm_num)) (by norm_num) (by norm_num),
    rainLoss_ok (by norm_num) (by norm_num) (Or.inr (by norm_num)) (by norm_num) (by norm_num), ?_⟩
  rw [max_eq_left (by positivity), max_eq_left (by positivity)]
  exact mul_lt_mul_of_pos_left hs hr

/-- **C146.** The oxygen loss per kilometre is the one of the table at its frequencies, on the straight line between two
neighbouring frequencies, and 0 outside the table. -/
theorem C146_oxygen (f : ℚ) :
    (∀ i (h : i + 1 < oxygenTable.length), (oxygenTable[i]).1 ≤ f → f ≤ (oxygenTable[i + 1]).1 →
      ∃ s, 0 ≤ s ∧ s ≤ 1 ∧ f = (1 - s) * (oxygenTable[i]).1 + s * (oxygenTable[i + 1]).1 ∧
        ∀ d : ℝ, oxygenLoss d f =
          (((1 - s) * (oxygenTable[i]).2 + s * (oxygenTable[i + 1]).2 : ℚ) : ℝ) * d) ∧
    ((f < 52 ∨ 68 < f) → ∀ d : ℝ, oxygenLoss d f = 0) := by
  have gen : ∀ (l : List (ℚ × ℚ)), (l.map Prod.fst).Pairwise (· < ·) → ∀ i (h : i + 1 < l.length),
      (l[i]).1 ≤ f → f ≤ (l[i + 1]).1 → ∃ s, 0 ≤ s ∧ s ≤ 1 ∧ f = (1 - s) * (l[i]).1 + s * (l[i + 1]).1 ∧
        interp l f = (1 - s) * (l[i]).2 + s * (l[i + 1]).2 := by
    intro l
    induction l with
    | nil => intro _ i h; simp at h
    | cons q l ih =>
      intro hp i h h1 h2
      obtain ⟨a, u⟩ := q
      cases l with
      | nil => simp at h
      | cons q' l =>
        obtain ⟨b, v⟩ := q'
        have hab : a < b := by simp at hp; exact hp.1.1
        have hp' : (((b, v) :: l).map Prod.fst).Pairwise (· < ·) := by simp at hp ⊢; exact hp.2
        by_cases hfb : f < b
        · cases i with
          | zero =>
            simp only [List.getElem_cons_zero] at h1 h2
            have hba : 0 < b - a := by linarith
            refine ⟨(f - a) / (b - a), div_nonneg (by linarith) hba.le, by rw [div_le_one hba]; linarith, ?_, ?_⟩
            · simp only [List.getElem_cons_zero, List.getElem_cons_succ]
              field_simp
              ring
            · unfold interp
              rw [if_neg (not_lt.2 h1), if_pos hfb]
              simp only [List.getElem_cons_zero, List.getElem_cons_succ]
              field_simp
              ring
          | succ i =>
            exfalso
            simp only [List.getElem_cons_succ] at h1
            have hi : i < ((b, v) :: l).length := by simp at h ⊢; omega
            have hm : ((b, v) :: l)[i] ∈ (b, v) :: l := List.getElem_mem _
            have : b ≤ (((b, v) :: l)[i]).1 := by
              rcases List.mem_cons.1 hm with e | e
              · rw [e]
              · rw [List.map_cons, List.pairwise_cons] at hp'
                exact (hp'.1 _ (List.mem_map.2 ⟨_, e, rfl⟩)).le
            linarith
        · have hbf := not_lt.1 hfb
          have hstep : interp ((a, u) :: (b, v) :: l) f = interp ((b, v) :: l) f := by
            rw [interp, if_neg (by linarith), if_neg hfb]
          rw [hstep]
          cases i with
          | succ i =>
            exact ih hp' i (by simpa using h) h1 h2
          | zero =>
            simp only [List.getElem_cons_zero, List.getElem_cons_succ] at h2 ⊢
            have hfe : f = b := le_antisymm h2 hbf
            refine ⟨1, by norm_num, le_rfl, by rw [hfe]; ring, ?_⟩
            rw [hfe]
            have : ∀ (r : List (ℚ × ℚ)), (((b, v) :: r).map Prod.fst).Pairwise (· < ·) → interp ((b, v) :: r) b = v := by
              intro r hr
              cases r with
              | nil => unfold interp; rw [if_pos rfl]
              | cons q r =>
                obtain ⟨c, w⟩ := q
                have : b < c := by simp at hr; exact hr.1.1
                unfold interp
                rw [if_neg (lt_irrefl _), if_pos this]
                ring
            rw [this l hp']
            ring
  refine ⟨fun i h h1 h2 => ?_, fun h d => ?_⟩
  · obtain ⟨s, s0, s1, sf, si⟩ := gen oxygenTable (by decide +kernel) i h h1 h2
    exact ⟨s, s0, s1, sf, fun d => by unfold oxygenLoss; rw [si]⟩
  · have : interp oxygenTable f = 0 := by
      rcases h with h | h
      · unfold oxygenTable interp
        rw [if_pos h]
      · unfold oxygenTable
        repeat' first
          | rw [interp, if_neg (by linarith), if_neg (by linarith)]
        rw [interp, if_neg (by linarith)]
    unfold oxygenLoss
    rw [this]
    simp

/-- The 60.48 GHz of the default configuration lie between two entries of the table. -/
example : interp oxygenTable (6048/100) = 3702/250 := by decide +kernel

/-! ## C147 -/

/-- The entry `i` of a pattern of 360 entries is the one for the whole degree closest to the angle `dev`: entry `i` stands
for `i` degrees and, since a turn has 360 degrees, for `i - 360` degrees. -/
def NearestDegree (dev : ℚ) (i : ℕ) : Prop :=
  i < 360 ∧ (|dev - i| ≤ 1 / 2 ∨ |dev - ((i : ℚ) - 360)| ≤ 1 / 2)

theorem pyRound_near (x : ℚ) : |x - pyRound x| ≤ 1 / 2 := by
  have h1 := Int.floor_le x
  have h2 := Int.lt_floor_add_one x
  unfold pyRound
  split
  · rw [abs_le]; constructor <;> linarith
  · split
    · push_cast; rw [abs_le]; constructor <;> linarith
    · split
      · rw [abs_le]; constructor <;> linarith
      · push_cast; rw [abs_le]; constructor <;> linarith

theorem degreeIndex_near {dev : ℚ} (h1 : -180 ≤ dev) (h2 : dev ≤ 180) :
    ∃ i : ℕ, degreeIndex dev = i ∧ NearestDegree dev i := by
  have hr := pyRound_near dev
  have ha := abs_le.1 hr
  have lo : (-181 : ℤ) < pyRound dev := by
    have : (-181 : ℚ) < pyRound dev := by linarith [ha.1]
    exact_mod_cast this
  have hi : pyRound dev < (181 : ℤ) := by
    have : (pyRound dev : ℚ) < 181 := by linarith [ha.2]
    exact_mod_cast this
  unfold degreeIndex
  by_cases c : 0 ≤ pyRound dev
  · rw [if_pos c]
    obtain ⟨i, hi'⟩ := Int.eq_ofNat_of_zero_le c
    refine ⟨i, hi', by omega, Or.inl ?_⟩
    rw [hi'] at hr
    exact_mod_cast hr
  · rw [if_neg c]
    obtain ⟨i, hi'⟩ := Int.eq_ofNat_of_zero_le (show 0 ≤ pyRound dev + 360 by omega)
    refine ⟨i, hi', by omega, Or.inr ?_⟩
    have : (pyRound dev : ℚ) = (i : ℚ) - 360 := by
      have : pyRound dev = (i : ℤ) - 360 := by omega
      rw [this]; push_cast; ring
    rw [← this]; exact hr

theorem pyIndex_nat {α : Type} (xs : List α) (i : ℕ) (h : i < xs.length) : pyIndex xs i = .ok xs[i] := by
  unfold pyIndex
  rw [if_neg (by omega)]
  simp only [Int.toNat_natCast, List.getElem?_eq_getElem h]
  rw [if_neg (by omega)]

/-- **C147.** With an antenna pattern whose first antenna has 360 horizontal and 360 vertical entries, the gain in every
direction exists: it is the gain at boresight plus the two entries for the whole degrees closest to the horizontal and
the vertical angle. -/
theorem C147_antenna (boresight diversity : ℚ) (name : String) (hor ver : List ℚ) (rest : Antennas)
    (hh : hor.length = 360) (hv : ver.length = 360) (az el : ℚ) (ha : |az| ≤ 180) (he : |el| ≤ 180) :
    ∃ (i j : ℕ) (_ : NearestDegree az i) (_ : NearestDegree el j) (hi : i < hor.length) (hj : j < ver.length),
      patternGain boresight diversity (.antenna ((name, hor, ver) :: rest)) az el =
        .ok (boresight + diversity + ver[j] + hor[i]) := by
  have ha := abs_le.1 ha
  have he := abs_le.1 he
  obtain ⟨i, ei, ni⟩ := degreeIndex_near ha.1 ha.2
  obtain ⟨j, ej, nj⟩ := degreeIndex_near he.1 he.2
  have hi : i < hor.length := by rw [hh]; exact ni.1
  have hj : j < ver.length := by rw [hv]; exact nj.1
  refine ⟨i, j, ni, nj, hi, hj, ?_⟩
  unfold patternGain
  dsimp only
  rw [ei, ej, pyIndex_nat _ _ hi, pyIndex_nat _ _ hj]

/-- Among the keys, `k` is closest to `x`. -/
def ClosestKey (keys : List ℚ) (x k : ℚ) : Prop := k ∈ keys ∧ ∀ k' ∈ keys, |k - x| ≤ |k' - x|

theorem nearestKey_spec (x : ℚ) (ks : List ℚ) (k : ℚ) (h : nearestKey x ks = some k) : ClosestKey ks x k := by
  cases ks with
  | nil => cases h
  | cons a l =>
    simp only [nearestKey, Option.some.injEq] at h
    have gen : ∀ (l : List ℚ) (b : ℚ), ClosestKey (b :: l) x
        (l.foldl (fun b c => if |c - x| < |b - x| then c else b) b) := by
      intro l
      induction l with
      | nil => intro b; exact ⟨by simp, fun k' hk' => by simp at hk'; rw [hk']; rfl⟩
      | cons c l ih =>
        intro b
        rw [List.foldl_cons]
        obtain ⟨h1, h2⟩ := ih (if |c - x| < |b - x| then c else b)
        refine ⟨?_, ?_⟩
        · rcases List.mem_cons.1 h1 with e | e
          · rw [e]; split <;> simp
          · simp [e]
        · intro k' hk'
          have h0 := h2 _ (List.mem_cons_self ..)
          have hb : |(if |c - x| < |b - x| then c else b) - x| ≤ |b - x| ∧
              |(if |c - x| < |b - x| then c else b) - x| ≤ |c - x| := by
            split
            · rename_i hlt; exact ⟨hlt.le, le_rfl⟩
            · rename_i hlt; exact ⟨le_rfl, not_lt.1 hlt⟩
          rcases List.mem_cons.1 hk' with e | e
          · rw [e]; exact h0.trans hb.1
          · rcases List.mem_cons.1 e with e | e
            · rw [e]; exact h0.trans hb.2
            · exact h2 _ (List.mem_cons_of_mem _ e)
    rw [← h]
    exact gen l a

theorem nearestVal_ok {ν : Type} {d : Dict ℚ ν} (x : ℚ) (hd : d ≠ []) :
    ∃ k v, nearestVal d x = .ok v ∧ d.get? k = some v ∧ ClosestKey d.keys x k := by
  cases d with
  | nil => exact absurd rfl hd
  | cons q d =>
    unfold nearestVal
    cases hn : nearestKey x (Dict.keys (q :: d)) with
    | none => simp [Dict.keys, nearestKey] at hn
    | some k =>
      have hk := nearestKey_spec x _ k hn
      obtain ⟨v, hv⟩ := (Dict.mem_keys_iff _ _).1 hk.1
      refine ⟨k, v, ?_, hv, hk⟩
      simp only [hv]

theorem pyMax_ok {xs : List ℚ} (h : xs ≠ []) : ∃ m, pyMax xs = some m := by
  cases xs with
  | nil => exact absurd rfl h
  | cons a l => exact ⟨_, rfl⟩

theorem maxBoresight_ok {d : Dict ℚ (Dict ℚ ℚ)} (hd : d ≠ []) (hr : ∀ r ∈ d.vals, r ≠ []) :
    ∃ g, maxBoresightGain d = .ok g ∧ (∃ r ∈ d.vals, g ∈ r.vals) ∧ ∀ r ∈ d.vals, ∀ v ∈ r.vals, v ≤ g := by
  have hm : ∀ rs : List (Dict ℚ ℚ), (∀ r ∈ rs, r ≠ []) → ∃ ms, rs.mapM (fun r => pyMax (Dict.vals r)) = some ms ∧
      (rs ≠ [] → ms ≠ []) ∧ ∀ m ∈ ms, ∃ r ∈ rs, m ∈ Dict.vals r := by
    intro rs
    induction rs with
    | nil => intro _; exact ⟨[], rfl, fun h => absurd rfl h, by simp⟩
    | cons r rs ih =>
      intro h
      obtain ⟨ms, e, _, hmem⟩ := ih (fun r hr => h r (by simp [hr]))
      have hne : Dict.vals r ≠ [] := by
        have := h r (by simp)
        cases r with
        | nil => exact absurd rfl this
        | cons q r => simp [Dict.vals]
      obtain ⟨m, hm⟩ := pyMax_ok hne
      refine ⟨m :: ms, by simp [List.mapM_cons, hm, e], fun _ => by simp, ?_⟩
      intro m' hm'
      rcases List.mem_cons.1 hm' with rfl | hm'
      · exact ⟨r, by simp, ((pyMax_iff _ _).1 hm).1⟩
      · obtain ⟨r', hr', hv⟩ := hmem m' hm'
        exact ⟨r', by simp [hr'], hv⟩
  obtain ⟨ms, e, hne, hmem⟩ := hm d.vals hr
  have hvals : Dict.vals d ≠ [] := by
    cases d with
    | nil => exact absurd rfl hd
    | cons q d => simp [Dict.vals]
  obtain ⟨g, hg⟩ := pyMax_ok (hne hvals)
  refine ⟨g, ?_, hmem g ((pyMax_iff _ _).1 hg).1, ?_⟩
  · unfold maxBoresightGain
    rw [e]
    dsimp only
    rw [hg]
  · intro r hr v hv
    obtain ⟨m, hm, hle⟩ := mapM_max_mem _ _ e r hr v hv
    exact hle.trans (((pyMax_iff _ _).1 hg).2 m hm)

/-- **C147.** With a scan pattern without empty rows, the gain in every direction exists: it is the gain at boresight,
reduced by how much the entry for the closest horizontal angle of the table and, in its row, the closest vertical angle
lies below the greatest entry of the table. -/
theorem C147_scan (boresight diversity : ℚ) (d : Dict ℚ (Dict ℚ ℚ)) (hd : d ≠ []) (hr : ∀ r ∈ d.vals, r ≠ [])
    (az el : ℚ) :
    ∃ h v row x top, ClosestKey d.keys az h ∧ d.get? h = some row ∧ ClosestKey row.keys el v ∧ row.get? v = some x ∧
      (∃ r ∈ d.vals, top ∈ r.vals) ∧ (∀ r ∈ d.vals, ∀ y ∈ r.vals, y ≤ top) ∧
      patternGain boresight diversity (.scan d) az el = .ok (boresight + diversity - (top - x)) := by
  obtain ⟨top, e0, ht, hle⟩ := maxBoresight_ok hd hr
  obtain ⟨h, row, e1, g1, c1⟩ := nearestVal_ok az hd
  have hrow : row ≠ [] := hr row (nearestVal_mem d az row e1)
  obtain ⟨v, x, e2, g2, c2⟩ := nearestVal_ok el hrow
  refine ⟨h, v, row, x, top, c1, g1, c2, g2, ht, hle, ?_⟩
  show extractGain boresight diversity (some d) az el = _
  unfold extractGain
  dsimp only
  rw [e0]
  dsimp only
  rw [e1]
  dsimp only
  rw [e2]
  dsimp only
  congr 1
  ring

/-- **C147.** Without a pattern the gain is the one at boresight in every direction. -/
theorem C147_none (boresight diversity az el : ℚ) :
    patternGain boresight diversity .none az el = .ok (boresight + diversity) := rfl

/-- A pattern with losses of 1 dB per degree up to 180: 12.4 degrees to the left and 3.6 degrees upwards. -/
example : patternGain 30 0 (.antenna [("horn", (List.range 360).map (fun i => -((min i (360 - i) : ℕ) : ℚ)),
    (List.range 360).map (fun i => -((min i (360 - i) : ℕ) : ℚ)))]) (-12.4) 3.6 = .ok (30 - 4 - 12) := by
  decide +kernel

/-- A scan pattern with two horizontal and two vertical angles. -/
example : patternGain 30 2 (.scan [(-10, [(0, 20), (5, 18)]), (0, [(0, 25), (5, 24)])]) (-8) 4 = .ok 25 := by
  decide +kernel

end Budget
end Verif
