import Verif.Model.Sinr
import Verif.Spec.Rf

/-!
# Which links disturb which (specification for C115 and C116)

Stated on the sites, sectors and links of the topology only.
-/

namespace Verif
namespace Sinr
open Classical

/-- A wireless link in use. -/
def InUse (l : Link) : Prop := l.isWireless = true ∧ l.status.active = true

/-- The site exists and is in use. -/
def SiteInUse (t : Topology) (s : SiteId) (x : Site) : Prop :=
  t.sites.get? s = some x ∧ x.status.active = true

/-- The two polarities are both known and equal. -/
def SamePolarity (p q : PolarityType) : Prop := p = q ∧ p ≠ .unassigned

/-- Site `y` transmits and receives when `x` does. Client nodes have no polarity of
their own: a client node takes the one its servers leave it, if these agree. -/
def SameSlot (t : Topology) (x y : Site) : Prop :=
  if y.siteType = .cn then
    ∃ p, p ≠ .unassigned ∧ x.polarity ≠ .unassigned ∧ x.polarity ≠ p ∧
      ∀ l ∈ t.links.vals, l.status.active = true → l.rx = y.id →
        ∃ z, t.sites.get? l.tx = some z ∧ z.polarity = p
  else SamePolarity x.polarity y.polarity

/-- What sector `a` sends reaches sector `b` over the path `P`. -/
structure Path (t : Topology) (P : Link) (a b : SectorId) : Prop where
  mem : P ∈ t.links.vals
  wireless : P.isWireless = true
  sectors : P.sectors = some (a, b)
  channels : ∃ x y, t.sectors.get? a = some x ∧ t.sectors.get? b = some y ∧
    x.status.active = true ∧ y.status.active = true ∧
    (x.channel = y.channel ∨ x.channel = -1 ∨ y.channel = -1)
  slots : ∃ x y, SiteInUse t P.tx x ∧ SiteInUse t P.rx y ∧ ¬ SameSlot t x y

/-- The path `P` ends at the sector that receives link `r`, which is in use, and
starts at another sector than the one sending `r`. -/
def Disturbs (t : Topology) (P r : Link) : Prop :=
  ∃ a b c, Path t P a b ∧ InUse r ∧ r.sectors = some (c, b) ∧ c ≠ a

/-- Link `x` is in use, not redundant, sent by the sector where path `P` starts, to
another sector than where `P` ends and than the one sending `r`. -/
def Source (P r x : Link) : Prop :=
  InUse x ∧ x.isRedundant = false ∧
  ∃ a b c d, P.sectors = some (a, b) ∧ r.sectors = some (c, b) ∧ x.sectors = some (a, d) ∧
    d ≠ b ∧ d ≠ c

/-- The average of a list; 0 for an empty one. -/
def average (xs : List ℚ) : ℚ := xs.sum / xs.length

/-- Gain from link `x` onto link `r` over the path `P`: the sender is turned from the direction of the path to that of
`x`, the receiver from that of the path to that of `r`; elevations are seen from below at the receiver. -/
def gainBetween (R : RadioEnv) (P r x : Link) : ℚ :=
  let sender := angleDelta (R.txDev P.id) (R.txDev x.id)
  let receiver := angleDelta (R.rxDev P.id) (R.rxDev r.id)
  let senderUp := angleDelta (R.elDev P.id) (R.elDev x.id)
  let receiverUp := -angleDelta (R.elDev P.id) (R.elDev r.id)
  R.pathGain P.id sender receiver senderUp receiverUp

/-- Power in mW that the other links in use put onto link `r`: for every path, the
average over the links its sector sends. -/
noncomputable def interferenceOn (t : Topology) (R : RadioEnv) (power : LinkId → Db) (r : Link) : ℚ :=
  ((t.links.vals.filter (fun P => decide (Disturbs t P r))).map (fun P =>
    average ((t.links.vals.filter (fun x => decide (Source P r x))).map
      (fun x => R.linDb ((power x.id).add (.val (gainBetween R P r x))))))).sum

/-- A wireless link between sectors and sites in use leads to a client node that no
link in use serves. -/
def ClientWithoutLink (t : Topology) (P : Link) : Prop :=
  P ∈ t.links.vals ∧ P.isWireless = true ∧
  (∃ a b x y, P.sectors = some (a, b) ∧ t.sectors.get? a = some x ∧ t.sectors.get? b = some y ∧
    x.status.active = true ∧ y.status.active = true) ∧
  (∃ x y, SiteInUse t P.tx x ∧ SiteInUse t P.rx y ∧ y.siteType = .cn) ∧
  ∀ l ∈ t.links.vals, l.status.active = true → l.rx ≠ P.rx

/-- The conversions between dBm and mW behave: powers are positive, and more mW is more
dBm, in both directions. -/
structure Scale (R : RadioEnv) : Prop where
  pos : ∀ q, 0 < R.lin q
  lin_mono : ∀ p q, p ≤ q → R.lin p ≤ R.lin q
  log_mono : ∀ a b, 0 < a → a ≤ b → R.log a ≤ R.log b
  log_lin : ∀ q, R.log (R.lin q) = q

/-- `m` is the best level whose threshold the SINR meets; 0 if there is none. -/
def BestLevel (tbl : List McsRow) : Db → ℤ → Prop
  | .val s, m => (Supports tbl s m ∧ ∀ m', Supports tbl s m' → m' ≤ m) ∨
      (m = 0 ∧ ∀ m', ¬ Supports tbl s m')
  | _, m => m = 0

/-- Every receiver has a rate table: levels are positive, a higher one needs more SNR,
thresholds and back-offs are not negative. -/
def TablesOk (t : Topology) (R : RadioEnv) : Prop :=
  ∀ l ∈ t.links.vals, R.table l.rx ≠ [] ∧ StrictTable (R.table l.rx) ∧
    ∀ r ∈ R.table l.rx, 0 < r.mcs ∧ 0 ≤ r.snr ∧ 0 ≤ r.txBackoff

/-- Noise and interference at the receiver of a link, in dBm. -/
noncomputable def noiseAndInterference (t : Topology) (R : RadioEnv) (M : LinkId → Meas) (l : Link) : ℚ :=
  R.log (interferenceOn t R (fun i => (M i).power) l + R.lin (R.noise l.rx))

end Sinr
end Verif
