import Verif.Props.LinkBudget2
import Verif.Spec.LinkBudget

/-!
# The signal of a link: path loss and reference rain loss (C164)
-/

namespace Verif
namespace Budget
open Real

/-! ## Lemmas -/

theorem oxygenTable_rows : ∀ n : Fin 17, oxygenTable[n.1]? = some (52 + (n.1 : ℚ), Spec.oxygenPerKm[n.1]?.getD 0) := by
  decide +kernel

theorem oxygen_absorbs {mhz k : ℚ} (h : Spec.Absorbs mhz k) (d : ℝ) : oxygenLoss d (mhz / 1000) = k * d := by
  have mid : ∀ (n : ℕ) (s : ℚ), n < 16 → 0 ≤ s → s ≤ 1 → oxygenLoss d (52 + n + s) =
      (((1 - s) * (Spec.oxygenPerKm[n]?.getD 0) + s * (Spec.oxygenPerKm[n + 1]?.getD 0) : ℚ) : ℝ) * d := by
    intro n s hn h0 h1
    have hl : n + 1 < oxygenTable.length := by simp only [oxygenTable, List.length_cons, List.length_nil]; omega
    have e1 : oxygenTable[n] = (52 + (n : ℚ), Spec.oxygenPerKm[n]?.getD 0) := by
      have := oxygenTable_rows ⟨n, by omega⟩
      rw [List.getElem?_eq_getElem (by dsimp only; omega)] at this
      exact Option.some.inj this
    have e2 : oxygenTable[n + 1] = (52 + ((n + 1 : ℕ) : ℚ), Spec.oxygenPerKm[n + 1]?.getD 0) := by
      have := oxygenTable_rows ⟨n + 1, by omega⟩
      rw [List.getElem?_eq_getElem (by dsimp only; omega)] at this
      exact Option.some.inj this
    obtain ⟨t, _, _, ef, ed⟩ := (C146_oxygen (52 + n + s)).1 n hl (by rw [e1]; dsimp only; linarith)
      (by rw [e2]; push_cast; linarith)
    rw [e1, e2] at ef
    have : t = s := by push_cast at ef; linarith
    subst this
    rw [ed d, e1, e2]
  rcases h with ⟨h | h, rfl⟩ | ⟨n, s, hn, h0, h1, rfl, rfl⟩
  · rcases h.lt_or_eq with h | rfl
    · rw [(C146_oxygen _).2 (Or.inl (by rw [div_lt_iff₀ (by norm_num)]; linarith))]
      norm_num
    · have := mid 0 0 (by norm_num) le_rfl (by norm_num)
      norm_num [Spec.oxygenPerKm] at this ⊢
      exact this
  · rcases h.lt_or_eq with h | rfl
    · rw [(C146_oxygen _).2 (Or.inr (by rw [lt_div_iff₀ (by norm_num)]; linarith))]
      norm_num
    · have := mid 15 1 (by norm_num) (by norm_num) le_rfl
      norm_num [Spec.oxygenPerKm] at this ⊢
      exact this
  · rw [mul_div_cancel_right₀ _ (by norm_num)]
    exact mid n s hn h0 h1

/-- The path loss in metres and megahertz. -/
theorem fspl_metres {x f : ℝ} (hx : 1 ≤ x) (hf : 20000 ≤ f) :
    fspl (x / 1000) (f / 1000) = 20 * logb 10 x + 20 * logb 10 f - 27.55 := by
  have h3 : logb 10 (1000 : ℝ) = 3 := by
    rw [show (1000 : ℝ) = 10 ^ (3 : ℝ) by norm_num, logb_rpow (by norm_num) (by norm_num)]
  have ex : logb 10 (x / 1000) = logb 10 x - 3 := by rw [logb_div (by linarith) (by norm_num), h3]
  have ef : logb 10 (f / 1000) = logb 10 f - 3 := by rw [logb_div (by linarith) (by norm_num), h3]
  have hx0 : 0 ≤ logb 10 x := logb_nonneg (by norm_num) hx
  have hf4 : 4 ≤ logb 10 f := by
    rw [le_logb_iff_rpow_le (by norm_num) (by linarith)]
    norm_num
    linarith
  unfold fspl
  rw [if_neg, ex, ef]
  · ring
  · rw [not_le, ← lt_logb_iff_rpow_lt (by norm_num) (by positivity), ex, ef]
    norm_num
    linarith

theorem rainShare_reference {f : ℝ} (hf : 20 ≤ f) (hf' : f ≤ 1000) :
    0.99 ≤ rainShare 0.01 f ∧ rainShare 0.01 f ≤ 1 := by
  obtain ⟨c1, c2⟩ := rainC0_range hf hf'
  have hl : logb 10 (0.01 : ℝ) = -2 := by
    rw [show (0.01 : ℝ) = 10 ^ (-2 : ℝ) by
      rw [rpow_neg (by norm_num), show (2 : ℝ) = ((2 : ℕ) : ℝ) by norm_num, rpow_natCast]; norm_num,
      logb_rpow (by norm_num) (by norm_num)]
  have e : rainShare 0.01 f = (0.07 * (100 : ℝ) ^ ((577 : ℕ) / (1000 : ℕ) : ℝ)) ^ rainC0 f *
      (0.12 * (100 : ℝ) ^ ((23 : ℕ) / (50 : ℕ) : ℝ)) ^ (1 - rainC0 f) := by
    rw [rainShare_ten (by norm_num), hl]
    generalize rainC0 f = c at *
    rw [mul_rpow (by norm_num) (by positivity), mul_rpow (by norm_num) (by positivity), ← rpow_mul (by norm_num),
      ← rpow_mul (by norm_num), show (100 : ℝ) = 10 ^ (2 : ℝ) by norm_num, ← rpow_mul (by norm_num),
      ← rpow_mul (by norm_num)]
    rw [show ∀ a b x y : ℝ, a * x * (b * y) = a * b * (x * y) from fun a b x y => by ring, ← rpow_add (by norm_num)]
    congr 2
    push_cast
    ring
  have a1 : (100 : ℝ) ^ ((577 : ℕ) / (1000 : ℕ) : ℝ) ≤ 14.2857 :=
    (rpow_le_rpow_of_exponent_le (by norm_num) (by norm_num)).trans
      (root_le (a := 100) (b := 14.2857) 56 97 (by norm_num) (by norm_num) (by norm_num) (by norm_num))
  have a2 : 14.143 ≤ (100 : ℝ) ^ ((577 : ℕ) / (1000 : ℕ) : ℝ) :=
    (le_root (a := 100) (b := 14.143) 15 26 (by norm_num) (by norm_num) (by norm_num) (by norm_num)).trans
      (rpow_le_rpow_of_exponent_le (by norm_num) (by norm_num))
  have b1 := root_le (a := 100) (b := 8.333) 23 50 (by norm_num) (by norm_num) (by norm_num) (by norm_num)
  have b2 := le_root (a := 100) (b := 8.25) 23 50 (by norm_num) (by norm_num) (by norm_num) (by norm_num)
  rw [e]
  generalize (100 : ℝ) ^ ((577 : ℕ) / (1000 : ℕ) : ℝ) = x at *
  generalize (100 : ℝ) ^ ((23 : ℕ) / (50 : ℕ) : ℝ) = y at *
  generalize rainC0 f = c at *
  constructor
  · calc (0.99 : ℝ) = 0.99 ^ c * 0.99 ^ (1 - c) := by rw [← rpow_add (by norm_num)]; norm_num
      _ ≤ _ := mul_le_mul (rpow_le_rpow (by norm_num) (by linarith) (by linarith))
        (rpow_le_rpow (by norm_num) (by linarith) (by linarith)) (by positivity)
        (rpow_nonneg (by linarith) _)
  · exact mul_le_one₀ (rpow_le_one (by linarith) (by linarith) (by linarith)) (rpow_nonneg (by linarith) _)
      (rpow_le_one (by linarith) (by linarith) (by linarith))

/-! ## C164 -/

/-- **C164.** Without rain, for carriers of at least 20 GHz and links from one metre to the 10 km that the planner
searches: the net gain is what the antennas give, less the losses in both devices, less the loss in free space
(`20 log x + 20 log f - 27.55` for metres and megahertz), less what the oxygen takes. -/
theorem C164_clear_air (tx : Radio) (txPat rxPat : Pattern) (rx : Option Radio) (dev : Deviations) (gt gr k : ℚ)
    (hf : 20000 ≤ tx.freq) (hk : Spec.Absorbs tx.freq k) (hr : tx.rain = 0) (ha : tx.avail < 100)
    (ht : patternGain tx.boresight tx.txDiversity txPat dev.tx dev.txEl = .ok gt)
    (hg : patternGain (rx.getD tx).boresight (rx.getD tx).rxDiversity (if rx.isSome then rxPat else txPat) dev.rx
      dev.rxEl = .ok gr) (x : ℝ) (hx : 1 ≤ x) (hx' : x ≤ 10000) :
    netGain x tx txPat rx rxPat dev = .ok (gt + gr - tx.txLoss - (rx.getD tx).rxLoss -
      (20 * logb 10 x + 20 * logb 10 tx.freq - 27.55) - k * (x / 1000)) := by
  have hf' : (20000 : ℝ) ≤ tx.freq := by exact_mod_cast hf
  have hfr : ((tx.freq / 1000 : ℚ) : ℝ) = tx.freq / 1000 := by push_cast; rfl
  have hpos : ¬ tx.freq / 1000 ≤ 0 := by
    have : (0 : ℚ) < tx.freq / 1000 := by linarith
    exact not_le.2 this
  have ea : rainLoss (x / 1000) tx.rain tx.avail ((tx.freq / 1000 : ℚ) : ℝ) = .ok 0 := by
    rw [hfr, rainLoss_ok (by linarith) (by linarith) (Or.inl (by rw [hr]; norm_num)) (by linarith) (by exact_mod_cast ha),
      show (tx.rain : ℝ) = 0 by rw [hr]; norm_num, rain001_zero, zero_mul, max_self]
  rw [netGain_eq ht hg ea hpos, hfr, fspl_metres hx hf']
  rw [oxygen_absorbs hk]
  congr 1
  ring

/-- A 60 GHz radio over 200 metres. -/
example : Spec.Absorbs 60000 15 ∧
    netGain 200 ⟨60000, 0, 999/10, 28, 1, 1, 2, 1⟩ .none none .none ⟨0, 0, 0, 0⟩ =
      .ok (28 + 1 + (28 + 1) - 2 - 1 - (20 * logb 10 200 + 20 * logb 10 60000 - 27.55) - 15 * (200 / 1000)) := by
  have hk : Spec.Absorbs 60000 15 := Or.inr ⟨8, 0, by norm_num, le_rfl, by norm_num, by norm_num, by
    norm_num [Spec.oxygenPerKm]⟩
  refine ⟨hk, ?_⟩
  have := C164_clear_air ⟨60000, 0, 999/10, 28, 1, 1, 2, 1⟩ .none .none none ⟨0, 0, 0, 0⟩ 29 29 15 (by norm_num) hk rfl
    (by norm_num) (by unfold patternGain; norm_num) (by unfold patternGain; norm_num) 200 (by norm_num) (by norm_num)
  rw [this]
  norm_num



/-- **C164.** The rate of rain that is configured is the one exceeded for 0.01 percent of the year: asked for an
availability of 99.99 percent, the rain loss is, within one percent, what rain of this rate takes (carriers from 20 GHz to
1000 GHz, links up to 10 km, at least 1 mm/h). -/
theorem C164_reference (d R f : ℝ) (h0 : 0 < d) (hd : d ≤ 10) (hR : 1 ≤ R) (hf : 20 ≤ f) (hf' : f ≤ 1000) :
    ∃ u, rainLoss d R 99.99 f = .ok u ∧ 0.99 * Spec.rainReference d R f ≤ u ∧ u ≤ Spec.rainReference d R f := by
  have e : rain001 d R f = Spec.rainReference d R f := by
    unfold rain001 rainDen Spec.rainReference
    ring_nf
  have hden : 0 < rainDen d R f := lt_of_lt_of_le (by positivity) (rainDen_ge h0 hd hR hf)
  have hp : 0 ≤ rain001 d R f := by unfold rain001; positivity
  obtain ⟨s1, s2⟩ := rainShare_reference hf hf'
  refine ⟨_, rainLoss_ok h0 hd (Or.inr hR) hf (by norm_num), ?_, ?_⟩
  · rw [← e, show (100 - 99.99 : ℝ) = 0.01 by norm_num]
    exact le_max_of_le_left (by nlinarith)
  · rw [← e, show (100 - 99.99 : ℝ) = 0.01 by norm_num]
    exact max_le (by nlinarith) hp

example : (0 : ℝ) < 0.3 ∧ (0.3 : ℝ) ≤ 10 ∧ (1 : ℝ) ≤ 30 ∧ (20 : ℝ) ≤ 60 ∧ (60 : ℝ) ≤ 1000 := by norm_num

end Budget
end Verif
