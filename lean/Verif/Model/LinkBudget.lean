import Mathlib.Analysis.SpecialFunctions.Pow.Real
import Mathlib.Analysis.SpecialFunctions.Log.Base
import Verif.Model.Rf
import Verif.Model.Elevation

/-!
# The link budget: `common/rf/link_budget_calculator.py`

Free-space, rain and oxygen loss, the gain of an antenna in a direction and the net gain of a link, which the other
models take as a parameter. Settings, angles and pattern entries are floats, here rationals; distances and losses are
real numbers and `math.pow`, `math.exp`, `math.log` the mathematical functions. A `ValueError` of these functions
("math domain error") is `.valueError`; overflow is not modelled.
-/

namespace Verif
namespace Budget
open Real

/-- `fspl`, `link_budget_calculator.py:40-47`, with `FSPL_MARGIN` of `common/constants.py:14`: kilometres and gigahertz.
The frequency is positive, see `netGain`. -/
noncomputable def fspl (d f : ℝ) : ℝ :=
  if d ≤ 10 ^ (-(92.45 / 20.0) - logb 10 f) then 0 else 20 * (logb 10 d + logb 10 f) + 92.45

/-- The expression inverted in `r`, `link_budget_calculator.py:231-237`: `d` in km, `R` in mm/h, `f` in GHz. -/
noncomputable def rainDen (d R f : ℝ) : ℝ :=
  0.477 * d ^ (0.633 : ℝ) * R ^ (0.073 * 0.7486 : ℝ) * f ^ (0.123 : ℝ) - 10.579 * (1 - exp (-0.024 * d))

/-- `c0`, `link_budget_calculator.py:241`. -/
noncomputable def rainC0 (f : ℝ) : ℝ := 0.12 + 0.4 * logb 10 ((f / 10) ^ (0.8 : ℝ))

/-- The factor of `a_p` that depends on the share `p` of the year, in percent, for which the link may fail,
`link_budget_calculator.py:242-245`. -/
noncomputable def rainShare (p f : ℝ) : ℝ :=
  (0.07 : ℝ) ^ rainC0 f * (0.12 : ℝ) ^ (1 - rainC0 f) *
    p ^ (-((0.855 * rainC0 f + 0.546 * (1 - rainC0 f)) +
      (0.139 * rainC0 f + 0.043 * (1 - rainC0 f)) * logb 10 p))

/-- `a_001`, `link_budget_calculator.py:226-239`. -/
noncomputable def rain001 (d R f : ℝ) : ℝ :=
  0.8515 * R ^ (0.7486 : ℝ) * d * min (1 / rainDen d R f) 2.5

/-- `compute_rain_loss`, `link_budget_calculator.py:206-246`: `d` in km, `R` in mm/h, `avail` in percent, `f` in GHz
(the conversion of 222 is in `netGain`). A negative rain rate or frequency and the frequency 0 raise `ValueError` in
`math.pow` or `math.log10`. `math.log10(p)` raises it for an availability of 100 percent. -/
noncomputable def rainLoss (d R avail f : ℝ) : Except Err ℝ :=
  if d ≤ 0 then .ok 0
  else if R < 0 ∨ f ≤ 0 then .error .valueError
  else if rainDen d R f = 0 then .error .zeroDivision
  else if 100 - avail ≤ 0 then .error .valueError
  else .ok (max (rain001 d R f * rainShare (100 - avail) f) 0)

/-- `np.interp(x, xp, fp, left=0.0, right=0.0)` for increasing `xp`. -/
def interp : List (ℚ × ℚ) → ℚ → ℚ
  | [], _ => 0
  | [(a, u)], x => if x = a then u else 0
  | (a, u) :: (b, v) :: r, x =>
    if x < a then 0
    else if x < b then u + (v - u) / (b - a) * (x - a)
    else interp ((b, v) :: r) x

/-- `FREQUENCY_DEPENDENT_OXYGEN_LOSS_MAP`, `common/constants.py:29-50`: GHz and dB/km. -/
def oxygenTable : List (ℚ × ℚ) :=
  [(52, 0), (53, 1), (54, 11/5), (55, 4), (56, 33/5), (57, 97/10), (58, 63/5), (59, 73/5), (60, 15), (61, 73/5),
   (62, 143/10), (63, 21/2), (64, 34/5), (65, 39/10), (66, 19/10), (67, 1), (68, 0)]

/-- `compute_oxygen_loss`, `link_budget_calculator.py:249-269`: `d` in km, `f` in GHz. -/
noncomputable def oxygenLoss (d : ℝ) (f : ℚ) : ℝ := (interp oxygenTable f : ℝ) * d

/-- `AntennaPatternData`, `common/structs.py:16`: the horizontal and the vertical gains of each antenna, in the order of
the file. -/
abbrev Antennas := Dict String (List ℚ × List ℚ)

/-- What `radio_pattern_data` can be: nothing, a scan pattern or antenna patterns; `is_scan_pattern_data`,
`link_budget_calculator.py:114-120`, tells them apart by the keys. An empty dictionary counts as a scan pattern. -/
inductive Pattern where
  | none
  | scan (d : Dict ℚ (Dict ℚ ℚ))
  | antenna (d : Antennas)

/-- Python `xs[i]`; the `IndexError` is `.keyError`. -/
def pyIndex {α : Type} (xs : List α) (i : ℤ) : Except Err α :=
  match xs[(if i < 0 then i + xs.length else i).toNat]? with
  | some x => if i + xs.length < 0 then .error .keyError else .ok x
  | none => .error .keyError

/-- The conversion of a deviation to an index, `link_budget_calculator.py:190-198`. -/
def degreeIndex (dev : ℚ) : ℤ :=
  if 0 ≤ pyRound dev then pyRound dev else pyRound dev + 360

/-- `extract_gain_from_radio_pattern`, `link_budget_calculator.py:123-204`: the scan pattern branch is `extractGain`. The
vertical gain is looked up first (199-204). -/
def patternGain (boresight diversity : ℚ) (p : Pattern) (az el : ℚ) : Except Err ℚ :=
  match p with
  | .none => .ok (boresight + diversity)
  | .scan d => extractGain boresight diversity (some d) az el
  | .antenna [] => extractGain boresight diversity (some []) az el
  | .antenna ((_, a) :: _) =>
    match pyIndex a.2 (degreeIndex el) with
    | .error e => .error e
    | .ok v =>
      match pyIndex a.1 (degreeIndex az) with
      | .error e => .error e
      | .ok h => .ok (boresight + diversity + v + h)

/-- The fields of `SectorParams` that the net gain depends on, `configs.py:168-285`; frequencies in MHz. -/
structure Radio where
  freq : ℚ
  rain : ℚ
  avail : ℚ
  boresight : ℚ
  txDiversity : ℚ
  rxDiversity : ℚ
  txLoss : ℚ
  rxLoss : ℚ

/-- The four angles of a link against the two antennas, in degrees. -/
structure Deviations where
  tx : ℚ
  rx : ℚ
  txEl : ℚ
  rxEl : ℚ

/-- `get_fspl_based_net_gain`, `link_budget_calculator.py:272-346`, with `get_net_gain`, 60-87: `dist` in metres. Both
losses take frequency, rain rate and availability of the transmitter. `fspl` takes the logarithm of the frequency first
(44), a `ValueError` for frequencies that are not positive. -/
noncomputable def netGain (dist : ℝ) (tx : Radio) (txPat : Pattern) (rx? : Option Radio) (rxPat? : Pattern)
    (dev : Deviations) : Except Err ℝ :=
  let rx := rx?.getD tx
  let rxPat := if rx?.isSome then rxPat? else txPat
  match patternGain tx.boresight tx.txDiversity txPat dev.tx dev.txEl with
  | .error e => .error e
  | .ok gt =>
    match patternGain rx.boresight rx.rxDiversity rxPat dev.rx dev.rxEl with
    | .error e => .error e
    | .ok gr =>
      match rainLoss (dist / 1000) tx.rain tx.avail ((tx.freq / 1000 : ℚ) : ℝ) with
      | .error e => .error e
      | .ok rain =>
        if tx.freq / 1000 ≤ 0 then .error .valueError
        else .ok ((gt : ℝ) - tx.txLoss + gr - rx.rxLoss - fspl (dist / 1000) ((tx.freq / 1000 : ℚ) : ℝ) -
          (rain + oxygenLoss (dist / 1000) (tx.freq / 1000)))

end Budget
end Verif
