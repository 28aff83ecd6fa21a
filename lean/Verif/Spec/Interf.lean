import Verif.Model.Interf
import Verif.Spec.Ilp

/-! Vocabulary for the statements about the interference problem. -/

namespace Verif.Spec

/-- A site that counts as built in the interference phase: PROPOSED or EXISTING, and of
the highest type among such sites at its place. -/
def Live (P : Plan) (s : SiteId) : Prop :=
  ∃ x, P.t.sites.get? s = some x ∧ x.status.active = true ∧
    ∀ b y, SamePlace P s b → P.t.sites.get? b = some y → y.status.active = true →
      rank y.siteType ≤ rank x.siteType

/-- The links the interference phase decides on: radio links of positive capacity with
sectors. -/
def Radio (l : Link) : Prop :=
  l.isWireless = true ∧ 0 < l.capacity ∧ l.sectors.isSome = true

instance (l : Link) : Decidable (Radio l) := by unfold Radio; infer_instance

/-- The links chosen by an assignment. -/
def chosen (P : Plan) (x : IVars) : List Link :=
  P.t.links.vals.filter fun l => Radio l ∧ x.active (arcOf l) = 1

/-- Every link's sectors are sectors of the topology at its two ends, and CN sectors are
exactly those at CN sites. -/
structure SectorsKnown (P : Plan) : Prop where
  ends : ∀ l ∈ P.t.links.vals, ∀ k1 k2, l.sectors = some (k1, k2) →
    (∃ d, P.t.sectors.get? k1 = some d ∧ d.site = l.tx) ∧
    ∃ d, P.t.sectors.get? k2 = some d ∧ d.site = l.rx
  typed : ∀ k d, P.t.sectors.get? k = some d → ∃ x, P.t.sites.get? d.site = some x ∧
    (d.typ = .cn ↔ x.siteType = .cn)

/-- Site type at an end of a link. -/
def typeAt (P : Plan) (s : SiteId) : Option SiteType := (P.t.sites.get? s).map (·.siteType)

/-- No link is sent by a CN; the constructor of `Link` asserts this,
`common/topology_models/link.py`. -/
def SendersDist (P : Plan) : Prop := ∀ l ∈ P.t.links.vals, typeAt P l.tx ≠ some .cn

/-- Transmissions on link `f` reach the receiver of link `l` and disturb it: the sender
of `f` also has a radio link `e` to the receiver of `l`, on the sector it uses for `f`,
which arrives in the sector that receives `l` (any sector of a CN, within its
scan range), and both ends of `f` are live and other than those of `l`. -/
def Interferes (P : Plan) (I : Interf) (l f : Link) : Prop :=
  Radio f ∧ f.tx ≠ l.tx ∧ f.rx ≠ l.rx ∧ Live P f.tx ∧ Live P f.rx ∧
  ∃ e ∈ P.t.links.vals, Radio e ∧ e.tx = f.tx ∧ e.rx = l.rx ∧
    e.sectors.map (·.1) = f.sectors.map (·.1) ∧
    (typeAt P l.rx = some .cn ∨ e.sectors.map (·.2) = l.sectors.map (·.2)) ∧
    ¬ (typeAt P l.rx = some .cn ∧ I.scan l.rx < 360 ∧ I.scan l.rx / 2 + 1 / 100 ≤
      |angleDelta (I.rxAzimuth (arcOf e)) (I.rxAzimuth (arcOf l))|)

open Classical in
/-- Power received at the end of `l` on channel `c` from the links that disturb it:
each contributes its level times its share of time, unless the polarities of the two
senders differ. -/
noncomputable def interference (P : Plan) (I : Interf) (x : IVars) (l : Link) (c : Nat) : ℚ :=
  ((P.t.links.vals.filter (fun f => Interferes P I l f)).map fun f =>
    if P.p.ignorePolarities = true ∨ x.odd f.tx = x.odd l.tx then
      I.rslInterf (.site f.tx, .site l.rx) * x.tdm (arcOf f) c else 0).sum

end Verif.Spec
