import Verif.Model.Rf

/-!
# What the rate table and range claims mean

Stated on the rows of a table only.
-/

namespace Verif

/-- `s` is the SNR threshold of level `m`: that of the last row listing `m`. -/
def Threshold (tbl : List McsRow) (m : ℤ) (s : ℚ) : Prop :=
  ∃ pre row post, tbl = pre ++ row :: post ∧ row.mcs = m ∧ row.snr = s ∧ ∀ r ∈ post, r.mcs ≠ m

/-- The SNR meets the threshold of level `m`. -/
def Supports (tbl : List McsRow) (snr : ℚ) (m : ℤ) : Prop := ∃ s, Threshold tbl m s ∧ s ≤ snr

/-- One row per level, and a higher level needs strictly more SNR. -/
def StrictTable (tbl : List McsRow) : Prop :=
  (tbl.map McsRow.mcs).Nodup ∧ ∀ a ∈ tbl, ∀ b ∈ tbl, a.mcs < b.mcs → a.snr < b.snr

/-- A higher level carries at least the throughput, and none is negative. -/
def RateOrdered (tbl : List McsRow) : Prop :=
  ∀ a ∈ tbl, 0 ≤ a.mbps ∧ ∀ b ∈ tbl, a.mcs < b.mcs → a.mbps ≤ b.mbps

/-- The levels are consecutive. -/
def Consecutive (tbl : List McsRow) : Prop :=
  ∀ a ∈ tbl, ∀ b ∈ tbl, ∀ k, a.mcs ≤ k → k ≤ b.mcs → ∃ r ∈ tbl, r.mcs = k

/-- Some transmit power allowed for the row's level (at least the minimum, at most
the maximum less the back-off) brings the SNR to the row's threshold. -/
def Usable (minTx : Option ℚ) (maxTx gain np : ℚ) (row : McsRow) : Prop :=
  ∃ p : ℚ, (∀ lo ∈ minTx, lo ≤ p) ∧ p ≤ maxTx - row.txBackoff ∧ row.snr ≤ p + gain - np

end Verif
