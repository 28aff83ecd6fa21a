import Verif.Lemmas.LinkBudget
import Verif.Props.LosRange

/-!
# The signal of a link: distance and losses (C145, C146)
-/

namespace Verif
namespace Budget
open Real

/-! ## Lemmas -/

theorem rainShare_pos {p f : ℝ} (hp : 0 < p) : 0 < rainShare p f := by
  unfold rainShare; positivity

theorem rain001_zero (d f : ℝ) : rain001 d 0 f = 0 := by
  unfold rain001
  rw [zero_rpow (by norm_num)]; ring

theorem rainDen_ne {d R f : ℝ} (h0 : 0 < d) (h : d ≤ 10) (hR : R = 0 ∨ 1 ≤ R) (hf : 20 ≤ f) : rainDen d R f ≠ 0 := by
  rcases hR with rfl | hR
  · unfold rainDen
    rw [zero_rpow (by norm_num)]
    have : exp (-0.024 * d) < 1 := by rw [exp_lt_one_iff]; nlinarith
    intro c
    nlinarith
  · have := rainDen_ge h0 h hR hf
    nlinarith

theorem rainLoss_ok {d R a f : ℝ} (h0 : 0 < d) (h : d ≤ 10) (hR : R = 0 ∨ 1 ≤ R) (hf : 20 ≤ f) (ha : a < 100) :
    rainLoss d R a f = .ok (max (rain001 d R f * rainShare (100 - a) f) 0) := by
  have hR0 : 0 ≤ R := by rcases hR with rfl | hR <;> linarith
  unfold rainLoss
  rw [if_neg (by linarith), if_neg (by push Not; exact ⟨hR0, by linarith⟩), if_neg (rainDen_ne h0 h hR hf),
    if_neg (by linarith)]

theorem rain_dist {x y R a f : ℝ} (hxy : x ≤ y) (hy : y ≤ 10) (hR : R = 0 ∨ 1 ≤ R) (hf : 20 ≤ f) (ha : a < 100) :
    ∃ u v, rainLoss x R a f = .ok u ∧ rainLoss y R a f = .ok v ∧ 0 ≤ u ∧ u ≤ v := by
  by_cases hx : x ≤ 0
  · have e : rainLoss x R a f = .ok 0 := if_pos hx
    by_cases hy0 : y ≤ 0
    · exact ⟨0, 0, e, if_pos hy0, le_rfl, le_rfl⟩
    · exact ⟨0, _, e, rainLoss_ok (not_le.1 hy0) hy hR hf ha, le_rfl, le_max_right _ _⟩
  · have hx := not_le.1 hx
    refine ⟨_, _, rainLoss_ok hx (hxy.trans hy) hR hf ha, rainLoss_ok (hx.trans_le hxy) hy hR hf ha, le_max_right _ _, ?_⟩
    refine max_le_max ?_ le_rfl
    refine mul_le_mul_of_nonneg_right ?_ (rainShare_pos (by linarith)).le
    rcases hR with rfl | hR
    · rw [rain001_zero, rain001_zero]
    · exact rain001_dist hx hxy hy hR hf

theorem fspl_mono {x y f : ℝ} (hxy : x ≤ y) : fspl x f ≤ fspl y f := by
  unfold fspl
  have ht : (0 : ℝ) < 10 ^ (-(92.45 / 20.0) - logb 10 f) := by positivity
  by_cases hy : y ≤ 10 ^ (-(92.45 / 20.0) - logb 10 f)
  · rw [if_pos hy, if_pos (hxy.trans hy)]
  · rw [if_neg hy]
    have hy := not_le.1 hy
    by_cases hx : x ≤ 10 ^ (-(92.45 / 20.0) - logb 10 f)
    · rw [if_pos hx]
      have h1 := logb_lt_logb (b := 10) (by norm_num) ht hy
      rw [logb_rpow (by norm_num) (by norm_num)] at h1
      norm_num at h1 ⊢
      linarith
    · rw [if_neg hx]
      have := logb_le_logb_of_le (b := 10) (by norm_num) (ht.trans (not_le.1 hx)) hxy
      linarith

theorem interp_nonneg : ∀ (l : List (ℚ × ℚ)) (x : ℚ), (l.map Prod.fst).Pairwise (· < ·) → (∀ q ∈ l, 0 ≤ q.2) →
    0 ≤ interp l x
  | [], _, _, _ => le_rfl
  | [(a, u)], x, _, h => by
    unfold interp
    split
    · exact h (a, u) (by simp)
    · exact le_rfl
  | (a, u) :: (b, v) :: r, x, hp, h => by
    unfold interp
    have hab : a < b := by simp at hp; exact hp.1.1
    have hu : 0 ≤ u := h (a, u) (by simp)
    have hv : 0 ≤ v := h (b, v) (by simp)
    split
    · exact le_rfl
    · rename_i hxa
      have hxa := not_lt.1 hxa
      split
      · rename_i hxb
        have hba : 0 < b - a := by linarith
        have : u + (v - u) / (b - a) * (x - a) = (u * (b - x) + v * (x - a)) / (b - a) := by
          field_simp; ring
        rw [this]
        exact div_nonneg (add_nonneg (mul_nonneg hu (by linarith)) (mul_nonneg hv (by linarith))) hba.le
      · exact interp_nonneg ((b, v) :: r) x (by simp at hp ⊢; exact hp.2) (fun q hq => h q (by simp at hq ⊢; tauto))

theorem oxygen_nonneg (f : ℚ) : 0 ≤ interp oxygenTable f :=
  interp_nonneg _ _ (by decide +kernel) (by decide +kernel)

theorem netGain_eq {dist : ℝ} {tx : Radio} {txPat rxPat : Pattern} {rx : Option Radio} {dev : Deviations} {gt gr : ℚ}
    {a : ℝ} (ht : patternGain tx.boresight tx.txDiversity txPat dev.tx dev.txEl = .ok gt)
    (hg : patternGain (rx.getD tx).boresight (rx.getD tx).rxDiversity (if rx.isSome then rxPat else txPat) dev.rx
      dev.rxEl = .ok gr) (ea : rainLoss (dist / 1000) tx.rain tx.avail ((tx.freq / 1000 : ℚ) : ℝ) = .ok a)
    (hpos : ¬ tx.freq / 1000 ≤ 0) :
    netGain dist tx txPat rx rxPat dev = .ok ((gt : ℝ) - tx.txLoss + gr - (rx.getD tx).rxLoss -
      fspl (dist / 1000) ((tx.freq / 1000 : ℚ) : ℝ) - (a + oxygenLoss (dist / 1000) (tx.freq / 1000))) := by
  unfold netGain
  dsimp only
  rw [ht]
  dsimp only
  rw [hg]
  dsimp only
  rw [ea]
  dsimp only
  rw [if_neg hpos]

/-! ## C145 -/

/-- **C145.** For a carrier of at least 20 GHz, a rain rate of 0 or at least 1 mm/h and an availability below 100 percent,
in whatever direction the antennas point: the net gain can be computed for every distance up to the 10 km that the
planner searches, and a longer link never has more of it. The full claim is for all radios that the configuration
accepts, which is false, see below. -/
theorem C145_distance_partial (tx : Radio) (txPat rxPat : Pattern) (rx : Option Radio) (dev : Deviations) (gt gr : ℚ)
    (hf : 20000 ≤ tx.freq) (hr : tx.rain = 0 ∨ 1 ≤ tx.rain) (ha : tx.avail < 100)
    (ht : patternGain tx.boresight tx.txDiversity txPat dev.tx dev.txEl = .ok gt)
    (hg : patternGain (rx.getD tx).boresight (rx.getD tx).rxDiversity (if rx.isSome then rxPat else txPat) dev.rx
      dev.rxEl = .ok gr) (x y : ℝ) (hxy : x ≤ y) (hy : y ≤ 10000) :
    ∃ u v, netGain x tx txPat rx rxPat dev = .ok u ∧ netGain y tx txPat rx rxPat dev = .ok v ∧ v ≤ u := by
  have hf' : (20 : ℝ) ≤ ((tx.freq / 1000 : ℚ) : ℝ) := by
    have : (20 : ℚ) ≤ tx.freq / 1000 := by rw [le_div_iff₀ (by norm_num)]; linarith
    exact_mod_cast this
  have hr' : (tx.rain : ℝ) = 0 ∨ (1 : ℝ) ≤ tx.rain := by
    rcases hr with h | h
    · left; exact_mod_cast h
    · right; exact_mod_cast h
  obtain ⟨a, b, ea, eb, _, hab⟩ := rain_dist (x := x / 1000) (y := y / 1000) (by linarith) (by linarith) hr' hf'
    (a := tx.avail) (by exact_mod_cast ha)
  have hpos : ¬ tx.freq / 1000 ≤ 0 := by
    have : (20 : ℚ) ≤ tx.freq / 1000 := by rw [le_div_iff₀ (by norm_num)]; linarith
    linarith
  refine ⟨_, _, netGain_eq ht hg ea hpos, netGain_eq ht hg eb hpos, ?_⟩
  have h1 := fspl_mono (f := ((tx.freq / 1000 : ℚ) : ℝ)) (show x / 1000 ≤ y / 1000 by linarith)
  have h2 : oxygenLoss (x / 1000) (tx.freq / 1000) ≤ oxygenLoss (y / 1000) (tx.freq / 1000) := by
    unfold oxygenLoss
    exact mul_le_mul_of_nonneg_left (by linarith) (by exact_mod_cast oxygen_nonneg _)
  linarith

/-- **C145.** The range computed for a pair of devices separates the distances with a usable signal from those without,
for the link budget as it is computed: `gain` is the net gain of `netGain` between radios facing each other, up to a
rounding `rnd` that keeps the order. -/
theorem C145_range_partial (radio : RfDevice → Radio) (rnd : ℝ → ℚ) (hrnd : Monotone rnd)
    (gain : RfDevice → RfDevice → ℤ → ℚ) (maxEirp : Option ℚ) (minDn minCn : Option ℤ) (tx rx : RfDevice)
    (hgain : ∀ (d : ℤ) (g : ℝ),
      netGain d (radio tx) .none (some (radio rx)) .none ⟨0, 0, 0, 0⟩ = .ok g → gain tx rx d = rnd g)
    (hf : 20000 ≤ (radio tx).freq) (hr : (radio tx).rain = 0 ∨ 1 ≤ (radio tx).rain) (ha : (radio tx).avail < 100)
    (hne : rx.params.mcsMap ≠ []) (hs : (rx.params.mcsMap.map McsRow.mcs).Nodup) (ho : RateOrdered rx.params.mcsMap)
    (hc : Consecutive rx.params.mcsMap) (h0 : ∀ r ∈ rx.params.mcsMap, 0 < r.mcs) (d : ℤ)
    (e : pairRange gain maxEirp minDn minCn tx rx = .ok d) :
    0 ≤ d ∧ d ≤ 10000 ∧ ∀ x, 0 ≤ x → x ≤ 10000 →
      ∃ b, estimate (gain tx rx x) (rx.params.noiseFigure + rx.params.thermalNoisePower)
          (maxTxPower tx.params maxEirp) tx.params.minimumTxPower
          (AllowedRows minDn minCn rx) = .ok b ∧
        (0 < b.capacity ↔ x < d) := by
  refine C20_pair_range gain maxEirp minDn minCn tx rx hne hs ho hc h0 ?_ d e
  intro x y _ hxy hy
  obtain ⟨u, v, e1, e2, hle⟩ := C145_distance_partial (radio tx) .none .none (some (radio rx)) ⟨0, 0, 0, 0⟩ _ _ hf hr ha
    rfl rfl x y (by exact_mod_cast hxy) (by exact_mod_cast hy)
  rw [hgain x u e1, hgain y v e2]
  exact hrnd hle

/-- The radio of the default configuration, 60 GHz in rain of 30 mm/h, with 30 dBi on both sides: at 100 m and at 250 m. -/
def demoRadio : Radio := ⟨60480, 30, 999/10, 30, 0, 0, 0, 0⟩

example : ∃ u v, netGain 100 demoRadio .none none .none ⟨0, 0, 0, 0⟩ = .ok u ∧
    netGain 250 demoRadio .none none .none ⟨0, 0, 0, 0⟩ = .ok v ∧ v ≤ u :=
  C145_distance_partial demoRadio .none .none none ⟨0, 0, 0, 0⟩ 30 30 (by unfold demoRadio; norm_num)
    (Or.inr (by unfold demoRadio; norm_num)) (by unfold demoRadio; norm_num) (by decide +kernel) (by decide +kernel) 100 250 (by norm_num)
    (by norm_num)

/-! ### The claim is false for low carrier frequencies -/

/-- A radio that the configuration accepts: 1 GHz, rain of 1 mm/h. -/
def lowRadio : Radio := ⟨1000, 1, 999/10, 0, 0, 0, 0, 0⟩

theorem root_le {a b : ℝ} (p q : ℕ) (hq : q ≠ 0) (ha : 0 ≤ a) (hb : 0 ≤ b) (h : a ^ p ≤ b ^ q) :
    a ^ ((p : ℝ) / q) ≤ b := by
  have e : a ^ ((p : ℝ) / q) = (a ^ p) ^ (1 / (q : ℝ)) := by
    rw [← rpow_natCast, ← rpow_mul ha]; congr 1; ring
  have e' : b = (b ^ q) ^ (1 / (q : ℝ)) := by
    rw [← rpow_natCast, ← rpow_mul hb, mul_one_div, div_self (by exact_mod_cast hq), rpow_one]
  rw [e]
  conv_rhs => rw [e']
  exact rpow_le_rpow (pow_nonneg ha _) h (by positivity)

theorem le_root {a b : ℝ} (p q : ℕ) (hq : q ≠ 0) (ha : 0 ≤ a) (hb : 0 ≤ b) (h : b ^ q ≤ a ^ p) :
    b ≤ a ^ ((p : ℝ) / q) := by
  have e : a ^ ((p : ℝ) / q) = (a ^ p) ^ (1 / (q : ℝ)) := by
    rw [← rpow_natCast, ← rpow_mul ha]; congr 1; ring
  have e' : b = (b ^ q) ^ (1 / (q : ℝ)) := by
    rw [← rpow_natCast, ← rpow_mul hb, mul_one_div, div_self (by exact_mod_cast hq), rpow_one]
  rw [e]
  conv_lhs => rw [e']
  exact rpow_le_rpow (pow_nonneg hb _) h (by positivity)

theorem low_den6 : 0 < rainDen 6 1 1 ∧ rainDen 6 1 1 ≤ 0.4 := by
  unfold rainDen
  rw [one_rpow, one_rpow]
  have h1 : (3.06 : ℝ) ≤ 6 ^ (0.633 : ℝ) := by
    have a := le_root (a := 6) (b := 3.06) 5 8 (by norm_num) (by norm_num) (by norm_num) (by norm_num)
    exact a.trans (rpow_le_rpow_of_exponent_le (by norm_num) (by norm_num))
  have h2 : (6 : ℝ) ^ (0.633 : ℝ) ≤ 3.31 := by
    have a := root_le (a := 6) (b := 3.31) 2 3 (by norm_num) (by norm_num) (by norm_num) (by norm_num)
    exact le_trans (rpow_le_rpow_of_exponent_le (by norm_num) (by norm_num)) a
  have h3 : (0.8635 : ℝ) ≤ exp (-0.024 * 6) := by
    have a := add_one_le_exp (-0.036 : ℝ)
    have b : exp (-0.024 * 6) = exp (-0.036) ^ 4 := by rw [← exp_nat_mul]; norm_num
    rw [b]
    have c : (0.964 : ℝ) ^ 4 ≤ exp (-0.036) ^ 4 := pow_le_pow_left₀ (by norm_num) (by linarith) 4
    refine le_trans (by norm_num) c
  have h4 : exp (-0.024 * 6) ≤ 0.8742 := by
    have a := add_one_le_exp (0.144 : ℝ)
    have b : exp (-0.024 * 6) * exp 0.144 = 1 := by rw [← exp_add]; norm_num
    have c := exp_pos (-0.024 * 6 : ℝ)
    nlinarith
  constructor <;> linarith

theorem low_den8 : rainDen 8 1 1 < 0 := by
  unfold rainDen
  rw [one_rpow, one_rpow]
  have h1 : (8 : ℝ) ^ (0.633 : ℝ) ≤ 3.74 := by
    have a := root_le (a := 2) (b := 3.74) 19 10 (by norm_num) (by norm_num) (by norm_num) (by norm_num)
    have b : (8 : ℝ) ^ (0.633 : ℝ) = 2 ^ (3 * 0.633 : ℝ) := by
      rw [rpow_mul (by norm_num)]; norm_num
    rw [b]
    exact le_trans (rpow_le_rpow_of_exponent_le (by norm_num) (by norm_num)) a
  have h2 : exp (-0.024 * 8) ≤ 0.8263 := by
    have a := quadratic_le_exp_of_nonneg (x := 0.192) (by norm_num)
    have b : exp (-0.024 * 8) * exp 0.192 = 1 := by rw [← exp_add]; norm_num
    have c := exp_pos (-0.024 * 8 : ℝ)
    nlinarith
  linarith

theorem log10_tenth : logb 10 (1 / 10 : ℝ) = -1 := by
  rw [one_div, logb_inv, logb_self_eq_one (by norm_num)]

theorem low_c0 : rainC0 1 = -0.2 := by
  unfold rainC0
  rw [logb_rpow_eq_mul_logb_of_pos (by norm_num), log10_tenth]
  norm_num

theorem low_share : 0.33 ≤ rainShare 0.1 1 := by
  unfold rainShare
  rw [low_c0, show (0.1 : ℝ) = 1 / 10 by norm_num, log10_tenth]
  have h1 : (1.7 : ℝ) ≤ 0.07 ^ (-0.2 : ℝ) := by
    have a := le_root (a := 100 / 7) (b := 1.7) 1 5 (by norm_num) (by norm_num) (by norm_num) (by norm_num)
    have b : (0.07 : ℝ) ^ (-0.2 : ℝ) = (100 / 7) ^ (((1 : ℕ) : ℝ) / (5 : ℕ)) := by
      rw [rpow_neg (by norm_num), ← inv_rpow (by norm_num)]; norm_num
    rw [b]; exact a
  have h2 : (0.078 : ℝ) ≤ 0.12 ^ (1 - -0.2 : ℝ) := by
    have a := le_root (a := 0.12) (b := 0.078) 6 5 (by norm_num) (by norm_num) (by norm_num) (by norm_num)
    refine a.trans_eq ?_
    norm_num
  have h3 : (2.5 : ℝ) ≤ (1 / 10) ^ (-(0.855 * -0.2 + 0.546 * (1 - -0.2) + (0.139 * -0.2 + 0.043 * (1 - -0.2)) * -1) : ℝ) := by
    have a := le_root (a := 10) (b := 2.5) 2 5 (by norm_num) (by norm_num) (by norm_num) (by norm_num)
    rw [rpow_neg (by norm_num), ← inv_rpow (by norm_num), show ((1 : ℝ) / 10)⁻¹ = 10 by norm_num]
    exact a.trans (rpow_le_rpow_of_exponent_le (by norm_num) (by norm_num))
  have h12 : (1.7 * 0.078 : ℝ) ≤ 0.07 ^ (-0.2 : ℝ) * 0.12 ^ (1 - -0.2 : ℝ) :=
    mul_le_mul h1 h2 (by norm_num) (by linarith)
  have h123 := mul_le_mul h12 h3 (by norm_num) (by linarith)
  refine le_trans (by norm_num) h123

/-- **C145 is false of the code:** with a carrier of 1 GHz, which the configuration accepts, the term that is inverted in
the rain loss changes its sign between 6 km and 8 km, the rain loss drops from more than 4 dB to none, and the signal is
stronger at the longer distance. -/
theorem C145_frequency_violation : ∃ u v, netGain 6000 lowRadio .none none .none ⟨0, 0, 0, 0⟩ = .ok u ∧
    netGain 8000 lowRadio .none none .none ⟨0, 0, 0, 0⟩ = .ok v ∧ u < v := by
  have hd6 := low_den6
  have hd8 := low_den8
  have hsh := low_share
  have hfreq : ((lowRadio.freq / 1000 : ℚ) : ℝ) = 1 := by unfold lowRadio; norm_num
  have hrain : (lowRadio.rain : ℝ) = 1 := by unfold lowRadio; norm_num
  have hav : (100 : ℝ) - lowRadio.avail = 0.1 := by unfold lowRadio; norm_num
  have e6 : rainLoss (6000 / 1000) lowRadio.rain lowRadio.avail ((lowRadio.freq / 1000 : ℚ) : ℝ) =
      .ok (0.8515 * 6 * 2.5 * rainShare 0.1 1) := by
    rw [hfreq, hrain]
    unfold rainLoss
    rw [show (6000 / 1000 : ℝ) = 6 by norm_num, if_neg (by norm_num), if_neg (by norm_num), if_neg hd6.1.ne', hav,
      if_neg (by norm_num)]
    congr 1
    unfold rain001
    have : min (1 / rainDen 6 1 1) 2.5 = 2.5 := by
      refine min_eq_right ?_
      rw [le_div_iff₀ hd6.1]
      nlinarith [hd6.2]
    rw [this, one_rpow, max_eq_left (by nlinarith)]
    ring
  have e8 : rainLoss (8000 / 1000) lowRadio.rain lowRadio.avail ((lowRadio.freq / 1000 : ℚ) : ℝ) = .ok 0 := by
    rw [hfreq, hrain]
    unfold rainLoss
    rw [show (8000 / 1000 : ℝ) = 8 by norm_num, if_neg (by norm_num), if_neg (by norm_num), if_neg hd8.ne, hav,
      if_neg (by norm_num)]
    congr 1
    refine max_eq_right ?_
    unfold rain001
    have : min (1 / rainDen 8 1 1) 2.5 ≤ 0 := (min_le_left _ _).trans (one_div_neg.2 hd8).le
    rw [one_rpow]
    nlinarith
  refine ⟨_, _, netGain_eq (gt := 0) (gr := 0) (by decide +kernel) (by decide +kernel) e6 (by unfold lowRadio; norm_num),
    netGain_eq (gt := 0) (gr := 0) (by decide +kernel) (by decide +kernel) e8 (by unfold lowRadio; norm_num), ?_⟩
  have hox : interp oxygenTable (lowRadio.freq / 1000) = 0 := by decide +kernel
  have htol : (10 : ℝ) ^ (-(92.45 / 20.0) - logb 10 1 : ℝ) ≤ 1 := by
    rw [logb_one]
    exact rpow_le_one_of_one_le_of_nonpos (by norm_num) (by norm_num)
  have hf6 : fspl 6 1 = 20 * (logb 10 6 + logb 10 1) + 92.45 := if_neg (by linarith)
  have hf8 : fspl 8 1 = 20 * (logb 10 8 + logb 10 1) + 92.45 := if_neg (by linarith)
  have hlog : logb 10 8 - logb 10 6 ≤ (1 / 5 : ℝ) := by
    rw [← logb_div (by norm_num) (by norm_num), logb_le_iff_le_rpow (by norm_num) (by norm_num)]
    have a := le_root (a := 10) (b := 8 / 6) 1 5 (by norm_num) (by norm_num) (by norm_num) (by norm_num)
    refine a.trans_eq ?_
    norm_num
  unfold oxygenLoss
  rw [hox, hfreq, show (6000 / 1000 : ℝ) = 6 by norm_num, show (8000 / 1000 : ℝ) = 8 by norm_num, hf6, hf8]
  simp only [Rat.cast_zero, zero_mul]
  nlinarith

end Budget
end Verif
