import Verif.Lemmas.Sinr2
import Verif.Props.Topology
import Mathlib.Tactic.Linarith
import Mathlib.Tactic.Positivity

/-! # C115: the SINR accounts for exactly the interfering links -/

namespace Verif
namespace Sinr
open Topology Spec

theorem stuck_iff {t : Topology} {P : Link} (hP : P ∈ t.links.vals) :
    Stuck t P ↔ ClientWithoutLink t P := by
  unfold Stuck ClientWithoutLink Unserved sectorActive
  constructor
  · rintro ⟨h1, ⟨a, b, h2, h3⟩, x, y, h4, h5, h6, h7⟩
    refine ⟨hP, h1, ?_, ⟨x, y, h4, h5, h6⟩, h7⟩
    cases ha : t.sectors.get? a with
    | none => rw [ha] at h3; simp at h3
    | some u =>
      cases hb : t.sectors.get? b with
      | none => rw [ha, hb] at h3; simp at h3
      | some v =>
        rw [ha, hb] at h3
        simp only [Option.any_some, Bool.and_eq_true] at h3
        exact ⟨a, b, u, v, h2, ha, hb, h3.1, h3.2⟩
  · rintro ⟨_, h1, ⟨a, b, u, v, h2, ha, hb, h3, h3'⟩, ⟨x, y, h4, h5, h6⟩, h7⟩
    refine ⟨h1, ⟨a, b, h2, ?_⟩, x, y, h4, h5, h6, h7⟩
    rw [ha, hb]
    simp [h3, h3']

theorem goodMap {t : Topology} (inv : t.Inv) (ends : SectorsOnEnds t) {R : RadioEnv} {G : GainMap}
    (h : netGainMap t R = .ok G) : GoodMap t R G := by
  obtain ⟨h1, h2⟩ := netGain_spec inv ends R
  by_cases c : ∃ P ∈ t.links.vals, Stuck t P
  · rw [h1 c] at h; cases h
  · obtain ⟨G', e, g1, g2⟩ := h2 (fun P hP hs => c ⟨P, hP, hs⟩)
    rw [e] at h
    cases h
    exact ⟨g1, g2⟩

/-- **C115.** After the interference analysis every wireless link in use that receives a
signal has as SINR its signal level less noise and interference, where the interference
is the sum over the paths from other sectors into its receiving sector of the average
power sent along them (`interferenceOn`); a link without a signal has none; nothing else
changes. -/
theorem C115_sinr (ops : List Op) (R : RadioEnv) (M M' : LinkId → Meas)
    (ends : SectorsOnEnds (run {} ops)) (h : analyze (run {} ops) R M = .ok M') :
    (∀ l ∈ (run {} ops).links.vals, InUse l →
      (∀ q, (M l.id).rsl = .val q → M' l.id = { M l.id with
        sinr := .val (q - R.log (interferenceOn (run {} ops) R (fun i => (M i).power) l +
          R.lin (R.noise l.rx))) }) ∧
      ((M l.id).rsl = .off → M' l.id = { M l.id with sinr := .off })) ∧
    ∀ i, (∀ l ∈ (run {} ops).links.vals, l.id = i → ¬ InUse l) → M' i = M i := by
  have inv := Inv.empty.run ops
  unfold analyze at h
  cases hG : netGainMap (run {} ops) R with
  | error e => rw [hG] at h; cases h
  | ok G =>
    rw [hG] at h
    cases h
    obtain ⟨a1, a2⟩ := analyzeWith_spec inv (goodMap inv ends hG) M
    refine ⟨fun l hl hu => ⟨fun q hq => ?_, fun hq => ?_⟩, a1⟩
    · rw [a2 l hl hu]
      unfold sinrSpec
      rw [hq, if_neg (by simp)]
      rfl
    · rw [a2 l hl hu]
      unfold sinrSpec
      rw [hq, if_pos rfl]

/-- **C115 (partial).** The analysis ends with a result except when a link leads to a
client node in use that no link in use serves; then it stops with a `KeyError`. Missing:
that it never stops. -/
theorem C115_succeeds_partial (ops : List Op) (R : RadioEnv) (M : LinkId → Meas)
    (ends : SectorsOnEnds (run {} ops)) :
    ((¬ ∃ P, ClientWithoutLink (run {} ops) P) → ∃ M', analyze (run {} ops) R M = .ok M') ∧
    ((∃ P, ClientWithoutLink (run {} ops) P) → analyze (run {} ops) R M = .error .keyError) := by
  have inv := Inv.empty.run ops
  obtain ⟨h1, h2⟩ := netGain_spec inv ends R
  unfold analyze
  constructor
  · intro h
    obtain ⟨G, e, _⟩ := h2 (fun P hP hs => h ⟨P, (stuck_iff hP).1 hs⟩)
    exact ⟨_, by rw [e]⟩
  · rintro ⟨P, hP⟩
    rw [h1 ⟨P, hP.1, (stuck_iff hP.1).2 hP⟩]

theorem linDb_nonneg {R : RadioEnv} (hR : Scale R) (x : Db) : 0 ≤ R.linDb x := by
  cases x with
  | val q => exact (hR.pos q).le
  | _ => exact le_rfl

theorem average_nonneg {xs : List ℚ} (h : ∀ x ∈ xs, 0 ≤ x) : 0 ≤ average xs := by
  unfold average
  exact div_nonneg (List.sum_nonneg h) (by positivity)

theorem interference_nonneg {R : RadioEnv} (hR : Scale R) (t : Topology) (power : LinkId → Db) (r : Link) :
    0 ≤ interferenceOn t R power r := by
  unfold interferenceOn
  apply List.sum_nonneg
  intro x hx
  obtain ⟨P, _, rfl⟩ := List.mem_map.1 hx
  apply average_nonneg
  intro y hy
  obtain ⟨z, _, rfl⟩ := List.mem_map.1 hy
  exact linDb_nonneg hR _

/-- **C115.** Interference only costs: the SINR of a link in use is at most its signal
level less the noise. -/
theorem C115_at_most_snr (ops : List Op) (R : RadioEnv) (hR : Scale R) (M M' : LinkId → Meas)
    (ends : SectorsOnEnds (run {} ops)) (h : analyze (run {} ops) R M = .ok M')
    (l : Link) (hl : l ∈ (run {} ops).links.vals) (hu : InUse l) (q : ℚ) (hq : (M l.id).rsl = .val q) :
    ∃ s, (M' l.id).sinr = .val s ∧ s ≤ q - R.noise l.rx := by
  have := ((C115_sinr ops R M M' ends h).1 l hl hu).1 q hq
  rw [this]
  refine ⟨_, rfl, ?_⟩
  have h1 := interference_nonneg hR (run {} ops) (fun i => (M i).power) l
  have h2 := hR.log_mono (R.lin (R.noise l.rx))
    (interferenceOn (run {} ops) R (fun i => (M i).power) l + R.lin (R.noise l.rx)) (hR.pos _) (by linarith)
  rw [hR.log_lin] at h2
  linarith

/-- **C115.** With no path onto a link, or only paths from sectors that send nothing, the
SINR is the signal level less the noise. -/
theorem C115_undisturbed (ops : List Op) (R : RadioEnv) (hR : Scale R) (M M' : LinkId → Meas)
    (ends : SectorsOnEnds (run {} ops)) (h : analyze (run {} ops) R M = .ok M')
    (l : Link) (hl : l ∈ (run {} ops).links.vals) (hu : InUse l) (q : ℚ) (hq : (M l.id).rsl = .val q)
    (quiet : ∀ P ∈ (run {} ops).links.vals, Disturbs (run {} ops) P l →
      ∀ x ∈ (run {} ops).links.vals, Source P l x → (M x.id).power = .off) :
    (M' l.id).sinr = .val (q - R.noise l.rx) := by
  have := ((C115_sinr ops R M M' ends h).1 l hl hu).1 q hq
  rw [this]
  dsimp only
  have e : interferenceOn (run {} ops) R (fun i => (M i).power) l = 0 := by
    unfold interferenceOn
    apply List.sum_eq_zero
    intro x hx
    obtain ⟨P, hP, rfl⟩ := List.mem_map.1 hx
    have hP := List.mem_filter.1 hP
    unfold average
    rw [List.sum_eq_zero, zero_div]
    intro y hy
    obtain ⟨z, hz, rfl⟩ := List.mem_map.1 hy
    have hz := List.mem_filter.1 hz
    dsimp only
    rw [quiet P hP.1 (by simpa using hP.2) z hz.1 (by simpa using hz.2)]
    rfl
  rw [e, zero_add, hR.log_lin]

/-! ## Examples -/

/-- A rational stand-in for `10 ** (q / 10)`. -/
def toyLin (q : ℚ) : ℚ := if 0 ≤ q then 1 + q else 1 / (1 - q)

/-- Its inverse. -/
def toyLog (x : ℚ) : ℚ := if 1 ≤ x then x - 1 else 1 - 1 / x

/-- An environment with the stand-ins, no deviations, and a gain for every path. -/
def toyEnv (gain : LinkId → ℚ) (tbl : List McsRow) (lo : Option ℚ) (hi : ℚ) : RadioEnv where
  lin := toyLin
  log := toyLog
  txDev := fun _ => 0
  rxDev := fun _ => 0
  elDev := fun _ => 0
  pathGain := fun P _ _ _ _ => gain P
  gain := gain
  noise := fun _ => -99
  maxTx := fun _ => hi
  minTx := fun _ => lo
  table := fun _ => tbl
  popCapacity := 10
  close := fun a b => decide (a = b)

theorem toy_scale (gain : LinkId → ℚ) (tbl : List McsRow) (lo : Option ℚ) (hi : ℚ) :
    Scale (toyEnv gain tbl lo hi) := by
  constructor
  · intro q
    show 0 < toyLin q
    unfold toyLin
    split
    · linarith
    · rename_i h
      have : 0 < 1 - q := by linarith
      positivity
  · intro p q hpq
    show toyLin p ≤ toyLin q
    unfold toyLin
    by_cases c1 : 0 ≤ p
    · rw [if_pos c1, if_pos (le_trans c1 hpq)]; linarith
    · rw [if_neg c1]
      have h1 : 0 < 1 - p := by linarith
      by_cases c2 : 0 ≤ q
      · rw [if_pos c2]
        have : 1 / (1 - p) ≤ 1 := by rw [div_le_one h1]; linarith
        linarith
      · rw [if_neg c2]
        have h2 : 0 < 1 - q := by linarith
        exact one_div_le_one_div_of_le h2 (by linarith)
  · intro a b ha hab
    show toyLog a ≤ toyLog b
    unfold toyLog
    by_cases c1 : 1 ≤ a
    · rw [if_pos c1, if_pos (le_trans c1 hab)]; linarith
    · rw [if_neg c1]
      by_cases c2 : 1 ≤ b
      · rw [if_pos c2]
        have : 1 ≤ 1 / a := by rw [le_div_iff₀ ha]; linarith
        linarith
      · rw [if_neg c2]
        have := one_div_le_one_div_of_le ha hab
        linarith
  · intro q
    show toyLog (toyLin q) = q
    unfold toyLin toyLog
    by_cases c : 0 ≤ q
    · rw [if_pos c, if_pos (by linarith)]; ring
    · rw [if_neg c]
      have h1 : 0 < 1 - q := by linarith
      rw [if_neg]
      · rw [one_div_one_div]; ring
      · rw [not_le, div_lt_one h1]; linarith

/-- Two links in use, `A -> B` and `C -> D`, with candidate links across. -/
def crossOps : List Op := [
  .addSite { id := "A", siteType := .pop, status := .proposed, polarity := .even } false,
  .addSite { id := "B", siteType := .dn, status := .proposed, polarity := .odd } false,
  .addSite { id := "C", siteType := .pop, status := .proposed, polarity := .even } false,
  .addSite { id := "D", siteType := .dn, status := .proposed, polarity := .odd } false,
  .addSector { site := "A", node := 0, pos := 0, status := .proposed, channel := 0 },
  .addSector { site := "B", node := 0, pos := 0, status := .proposed, channel := 0 },
  .addSector { site := "C", node := 0, pos := 0, status := .proposed, channel := 0 },
  .addSector { site := "D", node := 0, pos := 0, status := .proposed, channel := 0 },
  .addLink { tx := "A", rx := "B", status := .proposed, sectors := some (⟨"A", 0, 0, .dn⟩, ⟨"B", 0, 0, .dn⟩) },
  .addLink { tx := "C", rx := "D", status := .proposed, sectors := some (⟨"C", 0, 0, .dn⟩, ⟨"D", 0, 0, .dn⟩) },
  .addLink { tx := "A", rx := "D", sectors := some (⟨"A", 0, 0, .dn⟩, ⟨"D", 0, 0, .dn⟩) },
  .addLink { tx := "C", rx := "B", sectors := some (⟨"C", 0, 0, .dn⟩, ⟨"B", 0, 0, .dn⟩) }]

/-- All sectors of links are sectors of the topology on the link's ends. -/
def endsCheck (t : Topology) : Bool :=
  t.links.all (fun p => p.2.sectors.all (fun q =>
    decide (q.1.site = p.2.tx) && decide (q.2.site = p.2.rx) && (t.sectors.get? q.1).isSome &&
    (t.sectors.get? q.2).isSome))

theorem ends_of_check {t : Topology} (h : endsCheck t = true) : SectorsOnEnds t := by
  intro id l a b hl hs
  have := List.all_eq_true.1 h _ (Dict.mem_of_get? _ hl)
  dsimp only at this
  rw [hs] at this
  simp only [Option.all_some, Bool.and_eq_true, decide_eq_true_eq] at this
  obtain ⟨⟨⟨h1, h2⟩, h3⟩, h4⟩ := this
  exact ⟨h1, h2, Option.isSome_iff_exists.1 h3, Option.isSome_iff_exists.1 h4⟩

theorem cross_ends : SectorsOnEnds (run {} crossOps) := ends_of_check (by decide +kernel)

/-- Gain -60 dB on the links, -110 dB across. -/
def crossGain (i : LinkId) : ℚ := if i = ⟨"A", "B"⟩ ∨ i = ⟨"C", "D"⟩ then -60 else -110

/-- Both links send at 20 dBm and receive at -40 dBm. -/
def crossMeas (_ : LinkId) : Meas := ⟨9, .val (-40), .val 59, .val 59, 1, .val 20⟩

/-- The path `C -> B` carries the power of `C -> D` onto `A -> B`: -90 dBm are added to
the noise of -99 dBm. The cross links, not in use, keep their measurements. -/
example : ∃ M' ∈ (analyze (run {} crossOps) (toyEnv crossGain defaultRateTable none 20) crossMeas).toOption,
    (M' ⟨"A", "B"⟩).sinr = .val (-40 - (1 - 1 / (1 / 91 + 1 / 100))) ∧
    (M' ⟨"C", "B"⟩).sinr = .val 59 := by
  refine ⟨_, rfl, ?_⟩
  decide +kernel

/-- **C115** fails in part: site `D` is a client node whose sector is in use while no link
into it is; the analysis stops with a `KeyError`. -/
theorem C115_client_violation : ∃ ops : List Op, SectorsOnEnds (run {} ops) ∧
    ∀ R M, analyze (run {} ops) R M = .error .keyError := by
  refine ⟨[
    .addSite { id := "A", siteType := .pop, status := .existing, polarity := .even } false,
    .addSite { id := "D", siteType := .cn, status := .existing } false,
    .addSector { site := "A", node := 0, pos := 0, status := .existing, channel := 0 },
    .addSector { site := "D", node := 0, pos := 0, typ := .cn, status := .existing, channel := 0 },
    .addLink { tx := "A", rx := "D", sectors := some (⟨"A", 0, 0, .dn⟩, ⟨"D", 0, 0, .cn⟩) }],
    ends_of_check (by decide +kernel), ?_⟩
  intro R M
  rfl

end Sinr
end Verif
