import Verif.Props.Rf
import Verif.Lemmas.PowerControl

/-! # C116: transmit power control -/

namespace Verif
namespace Sinr
open Topology Spec

theorem capacity_spec {tbl : List McsRow} (hs : StrictTable tbl) (k : ℤ) :
    (∀ r ∈ tbl, r.mcs = k → capacityOf k tbl = r.mbps / 1000) ∧
    ((∀ r ∈ tbl, r.mcs ≠ k) → capacityOf k tbl = 0) := by
  refine ⟨?_, fun h => capacityOf_absent h⟩
  rintro r hr rfl
  exact capacityOf_row hs.1 hr

theorem update_spec {t : Topology} (inv : t.Inv) (ends : SectorsOnEnds t) {R : RadioEnv}
    (hT : ∀ l ∈ t.links.vals, R.table l.rx ≠ []) (ns : ∀ P ∈ t.links.vals, ¬ Stuck t P)
    {n : ℤ} (hn : 1 ≤ n) (M0 : LinkId → Meas) (Q : (LinkId → Meas) → Prop)
    (hQ1 : ∀ M1, (∀ l ∈ t.links.vals, fullPower R l = .ok (M1 l.id)) → Q M1)
    (hQ : ∀ M1 M M', Basic t R M1 M → Basic t R M1 M' → Q M →
      (∀ l ∈ t.links.vals, InUse l → l.sectors ≠ none → Rnd t R M M' l) → Q M') :
    ∃ M M1 M2, updateLinkCaps t R n M0 = .ok M ∧
      (∀ l ∈ t.links.vals, fullPower R l = .ok (M1 l.id)) ∧ Basic t R M1 M2 ∧ Q M2 ∧
      (∀ l ∈ t.links.vals, InUse l → ∃ Mp, Basic t R M1 Mp ∧ Q Mp ∧
        ∀ l ∈ t.links.vals, InUse l → l.sectors ≠ none → Rnd t R Mp M2 l) ∧
      (∀ i, (M i).power = (M2 i).power ∧ (M i).rsl = (M2 i).rsl ∧ (M i).snr = (M2 i).snr) ∧
      (∀ l ∈ t.links.vals, InUse l → (M l.id).sinr = sinrSpec t R M l) ∧
      (∀ l ∈ t.links.vals, l.isWireless = true → BestLevel (R.table l.rx) (M l.id).sinr (M l.id).mcs ∧
        (M l.id).capacity = capacityOf (M l.id).mcs (R.table l.rx)) ∧
      (∀ l ∈ t.links.vals, l.isWireless = true → ¬ InUse l → (M l.id).sinr = (M1 l.id).sinr) ∧
      (∀ l ∈ t.links.vals, l.isWireless = false → M l.id = M1 l.id) := by
  obtain ⟨M1, e1, e2, _⟩ := addCapacities_spec R t.links.vals M0 (ids_nd inv) hT
  obtain ⟨G, g1, g2, g3⟩ := (netGain_spec inv ends R).2 ns
  have hG : GoodMap t R G := ⟨g2, g3⟩
  have full : ∀ l ∈ t.links.vals, (l.isWireless = true → l.sectors = none → (M1 l.id).rsl = .off ∧ (M1 l.id).power = .off) ∧
      (l.isWireless = true → l.sectors ≠ none → ∃ q, (M1 l.id).power = .val q ∧
        (M1 l.id).rsl = .val (q + R.gain l.id) ∧ (M1 l.id).snr = .val (q + R.gain l.id - R.noise l.rx)) := by
    intro l hl
    obtain ⟨m, f1, _, _, f4, f5⟩ := fullPower_ok R l (hT l hl)
    have := ok_of_ok f1 (e2 l hl)
    subst this
    refine ⟨f4, fun h1 h2 => ?_⟩
    obtain ⟨q, k, a, b, c, _⟩ := f5 h1 h2
    exact ⟨q, a, b, c⟩
  have hB1 : Basic t R M1 M1 := by
    refine ⟨fun _ _ => rfl, ?_, ?_⟩
    · intro l hl hu cs
      obtain ⟨q, a, b, c⟩ := (full l hl).2 hu.1 cs
      rw [a, b, c]
      exact ⟨rfl, rfl, by simp⟩
    · intro l hl hu cs
      obtain ⟨a, b⟩ := (full l hl).1 hu.1 cs
      exact ⟨b, Or.inl a⟩
  have hg : ∀ l ∈ t.links.vals, InUse l →
      (l.sectors ≠ none → (M1 l.id).rsl.sub (M1 l.id).power = .val (R.gain l.id)) ∧
      (l.sectors = none → (M1 l.id).rsl.sub (M1 l.id).power = .nan) := by
    intro l hl hu
    constructor
    · intro cs
      obtain ⟨q, a, b, c⟩ := (full l hl).2 hu.1 cs
      rw [a, b]
      show Db.val (q + R.gain l.id - q) = _
      rw [add_sub_cancel_left]
    · intro cs
      obtain ⟨a, b⟩ := (full l hl).1 hu.1 cs
      rw [a, b]; rfl
  have q1 := hQ1 M1 e2
  have loop : ∃ M2, (if 0 < (linksInUse t).length then
        tpcLoop t R G (fun id => (M1 id).rsl.sub (M1 id).power) (linksInUse t) n.toNat M1
      else .ok M1) = .ok M2 ∧ Basic t R M1 M2 ∧ Q M2 ∧
      (∀ l ∈ t.links.vals, InUse l → ∃ Mp, Basic t R M1 Mp ∧ Q Mp ∧
        ∀ l ∈ t.links.vals, InUse l → l.sectors ≠ none → Rnd t R Mp M2 l) := by
    by_cases c : 0 < (linksInUse t).length
    · rw [if_pos c]
      have hn' : n.toNat = (n.toNat - 1) + 1 := by omega
      rw [hn']
      obtain ⟨M2, f1, f2, f3, f4⟩ := loop_spec inv hG hT (fun id => (M1 id).rsl.sub (M1 id).power) hg Q
        (hQ M1) (n.toNat - 1) M1 hB1 q1
      exact ⟨M2, f1, f2, f3, fun _ _ _ => f4⟩
    · rw [if_neg c]
      refine ⟨M1, rfl, hB1, q1, ?_⟩
      intro l hl hu
      exact absurd (List.length_pos_of_mem ((inUse_mem l).2 ⟨hl, hu⟩)) c
  obtain ⟨M2, f1, f2, f3, f4⟩ := loop
  obtain ⟨a1, a2⟩ := analyzeWith_spec inv hG M2
  obtain ⟨M, h1, h2, h3, h4⟩ := finalCaps_spec R t.links.vals (analyzeWith t R G M2) (ids_nd inv) hT
  have keepA : ∀ i, (analyzeWith t R G M2 i).power = (M2 i).power ∧
      (analyzeWith t R G M2 i).rsl = (M2 i).rsl ∧ (analyzeWith t R G M2 i).snr = (M2 i).snr := by
    intro i
    by_cases c : ∃ l ∈ t.links.vals, l.id = i ∧ InUse l
    · obtain ⟨l, hl, rfl, hu⟩ := c
      rw [a2 l hl hu]
      exact ⟨rfl, rfl, rfl⟩
    · rw [a1 i (fun l hl h hu => c ⟨l, hl, h, hu⟩)]
      exact ⟨rfl, rfl, rfl⟩
  have keepF : ∀ i, (M i).power = (analyzeWith t R G M2 i).power ∧
      (M i).rsl = (analyzeWith t R G M2 i).rsl ∧ (M i).snr = (analyzeWith t R G M2 i).snr ∧
      (M i).sinr = (analyzeWith t R G M2 i).sinr := by
    intro i
    by_cases c : i ∈ t.links.vals.map Link.id
    · obtain ⟨l, hl, rfl⟩ := List.mem_map.1 c
      cases hw : l.isWireless with
      | true =>
        obtain ⟨k, _, e⟩ := h2 l hl hw
        rw [e]
        exact ⟨rfl, rfl, rfl, rfl⟩
      | false => rw [h3 l hl hw]; exact ⟨rfl, rfl, rfl, rfl⟩
    · rw [h4 i c]; exact ⟨rfl, rfl, rfl, rfl⟩
  have keep : ∀ i, (M i).power = (M2 i).power ∧ (M i).rsl = (M2 i).rsl ∧ (M i).snr = (M2 i).snr := by
    intro i
    obtain ⟨k1, k2, k3, _⟩ := keepF i
    obtain ⟨j1, j2, j3⟩ := keepA i
    exact ⟨k1.trans j1, k2.trans j2, k3.trans j3⟩
  have same : ∀ l, sinrSpec t R M2 l = sinrSpec t R M l := by
    intro l
    unfold sinrSpec
    rw [(keep l.id).2.1]
    have : (fun i => (M i).power) = (fun i => (M2 i).power) := funext fun i => (keep i).1
    rw [this]
  refine ⟨M, M1, M2, ?_, e2, f2, f3, f4, keep, ?_, ?_, ?_, ?_⟩
  · unfold updateLinkCaps
    rw [if_neg (by omega), e1]
    dsimp only
    rw [g1]
    dsimp only
    rw [f1]
    exact h1
  · intro l hl hu
    rw [(keepF l.id).2.2.2, a2 l hl hu, ← same l]
  · intro l hl hw
    obtain ⟨k, b, e⟩ := h2 l hl hw
    rw [e]
    exact ⟨b, rfl⟩
  · intro l hl hw hu
    rw [(keepF l.id).2.2.2, a1 l.id, f2.rest]
    · intro x hx e hu'
      have := links_at inv x hx
      rw [e, links_at inv l hl] at this
      cases this
      exact hu hu'
    · intro x hx e hu'
      have := links_at inv x hx
      rw [e, links_at inv l hl] at this
      cases this
      exact hu hu'
  · intro l hl hw
    have no : ∀ x ∈ t.links.vals, x.id = l.id → ¬ InUse x := by
      intro x hx e hu'
      have := links_at inv x hx
      rw [e, links_at inv l hl] at this
      cases this
      rw [hu'.1] at hw
      cases hw
    rw [h3 l hl hw, a1 l.id no, f2.rest _ no]

/-- **C116 (partial).** Power control refuses fewer than one round; otherwise it ends with
a result except when the interference analysis stops (see C115). Missing: that it never
stops. -/
theorem C116_succeeds_partial (ops : List Op) (R : RadioEnv) (n : ℤ) (M0 : LinkId → Meas)
    (ends : SectorsOnEnds (run {} ops)) (hT : TablesOk (run {} ops) R) :
    (n < 1 → updateLinkCaps (run {} ops) R n M0 = .error .optimizer) ∧
    (1 ≤ n → (¬ ∃ P, ClientWithoutLink (run {} ops) P) →
      ∃ M, updateLinkCaps (run {} ops) R n M0 = .ok M) ∧
    (1 ≤ n → (∃ P, ClientWithoutLink (run {} ops) P) →
      updateLinkCaps (run {} ops) R n M0 = .error .keyError) := by
  have inv := Inv.empty.run ops
  have hT' := fun l hl => (hT l hl).1
  refine ⟨fun h => ?_, fun h hc => ?_, fun h hc => ?_⟩
  · unfold updateLinkCaps; rw [if_pos h]
  · obtain ⟨M, _, _, e, _⟩ := update_spec inv ends hT' (fun P hP hs => hc ⟨P, (stuck_iff hP).1 hs⟩) h M0
      (fun _ => True) (fun _ _ => trivial) (fun _ _ _ _ _ _ _ => trivial)
    exact ⟨M, e⟩
  · obtain ⟨P, hP⟩ := hc
    obtain ⟨M1, e1, _⟩ := addCapacities_spec R (run {} ops).links.vals M0 (ids_nd inv) hT'
    unfold updateLinkCaps
    rw [if_neg (by omega), e1]
    dsimp only
    rw [(netGain_spec inv ends R).1 ⟨P, hP.1, (stuck_iff hP.1).2 hP⟩]

theorem not_stuck {ops : List Op} {R : RadioEnv} {n : ℤ} {M0 M : LinkId → Meas}
    (ends : SectorsOnEnds (run {} ops)) (hT : TablesOk (run {} ops) R)
    (h : updateLinkCaps (run {} ops) R n M0 = .ok M) :
    1 ≤ n ∧ ∀ P ∈ (run {} ops).links.vals, ¬ Stuck (run {} ops) P := by
  obtain ⟨h1, h2, h3⟩ := C116_succeeds_partial ops R n M0 ends hT
  have hn : 1 ≤ n := by
    by_contra c
    rw [h1 (by omega)] at h
    cases h
  refine ⟨hn, fun P hP hs => ?_⟩
  rw [h3 hn ⟨P, (stuck_iff hP).1 hs⟩] at h
  cases h

/-- **C116.** After power control the reported values fit together. A wired link has the
capacity of a POP. A wireless link has the best level its SINR supports, and the capacity
of that level. In a link in use the signal is the power plus the gain, the SNR the signal
less the noise, and the SINR the signal less the noise and the interference caused by the
final powers of all links. A wireless link not in use keeps power, signal and SNR of the
full-power estimate, undisturbed. -/
theorem C116_measurements (ops : List Op) (R : RadioEnv) (n : ℤ) (M0 M : LinkId → Meas)
    (ends : SectorsOnEnds (run {} ops)) (hT : TablesOk (run {} ops) R)
    (h : updateLinkCaps (run {} ops) R n M0 = .ok M)
    (l : Link) (hl : l ∈ (run {} ops).links.vals) :
    (l.isWireless = false → M l.id = ⟨0, .off, .off, .off, R.popCapacity, .off⟩) ∧
    (l.isWireless = true → BestLevel (R.table l.rx) (M l.id).sinr (M l.id).mcs ∧
      (∀ r ∈ R.table l.rx, r.mcs = (M l.id).mcs → (M l.id).capacity = r.mbps / 1000) ∧
      ((∀ r ∈ R.table l.rx, r.mcs ≠ (M l.id).mcs) → (M l.id).capacity = 0)) ∧
    (InUse l → l.sectors ≠ none →
      ((M l.id).power = .off ∧ (M l.id).rsl = .off ∧ (M l.id).snr = .off ∧ (M l.id).sinr = .off) ∨
      ∃ q, (M l.id).power = .val q ∧ (M l.id).rsl = .val (q + R.gain l.id) ∧
        (M l.id).snr = .val (q + R.gain l.id - R.noise l.rx) ∧
        (M l.id).sinr = .val (q + R.gain l.id - noiseAndInterference (run {} ops) R M l)) ∧
    (InUse l → l.sectors = none → (M l.id).power = .off ∧ (M l.id).mcs = 0 ∧ (M l.id).capacity = 0) ∧
    (l.isWireless = true → ¬ InUse l → ∃ m, fullPower R l = .ok m ∧ (M l.id).power = m.power ∧
      (M l.id).rsl = m.rsl ∧ (M l.id).snr = m.snr ∧ (M l.id).sinr = m.snr) := by
  have inv := Inv.empty.run ops
  have hT' := fun l hl => (hT l hl).1
  obtain ⟨hn, ns⟩ := not_stuck ends hT h
  obtain ⟨M', M1, M2, e, e1, e2, _, _, keep, e5, e6, e7, e8⟩ := update_spec inv ends hT' ns hn M0
    (fun _ => True) (fun _ _ => trivial) (fun _ _ _ _ _ _ _ => trivial)
  have := ok_of_ok h e
  subst this
  obtain ⟨m, f1, f2, f3, f4, f5⟩ := fullPower_ok R l (hT' l hl)
  have hm := ok_of_ok f1 (e1 l hl)
  have best : l.isWireless = true → BestLevel (R.table l.rx) (M l.id).sinr (M l.id).mcs ∧
      (∀ r ∈ R.table l.rx, r.mcs = (M l.id).mcs → (M l.id).capacity = r.mbps / 1000) ∧
      ((∀ r ∈ R.table l.rx, r.mcs ≠ (M l.id).mcs) → (M l.id).capacity = 0) := by
    intro hw
    obtain ⟨b1, b2⟩ := e6 l hl hw
    refine ⟨b1, ?_⟩
    rw [b2]
    exact capacity_spec (hT l hl).2.1 _
  refine ⟨?_, best, ?_, ?_, ?_⟩
  · intro hw
    rw [e8 l hl hw, ← hm]
    exact f3 hw
  · intro hu cs
    obtain ⟨b1, b2, b3⟩ := e2.on l hl hu cs
    obtain ⟨k1, k2, k3⟩ := keep l.id
    have es := e5 l hl hu
    unfold sinrSpec at es
    cases hp : (M2 l.id).power with
    | nan => exact absurd hp b3
    | off =>
      left
      rw [hp] at b1
      have r0 : (M l.id).rsl = .off := k2.trans b1
      rw [r0, if_pos rfl] at es
      refine ⟨k1.trans hp, r0, ?_, es⟩
      rw [k3, b2, b1]; rfl
    | val q =>
      right
      rw [hp] at b1
      have r0 : (M l.id).rsl = .val (q + R.gain l.id) := k2.trans b1
      rw [r0, if_neg (by simp)] at es
      refine ⟨q, k1.trans hp, r0, ?_, es⟩
      rw [k3, b2, b1]; rfl
  · intro hu cs
    obtain ⟨b1, b2⟩ := e2.out l hl hu cs
    obtain ⟨k1, k2, k3⟩ := keep l.id
    have es := e5 l hl hu
    unfold sinrSpec at es
    have z : (M l.id).mcs = 0 := by
      have bl := (best hu.1).1
      rw [k2] at es
      rcases b2 with b2 | b2
      · rw [b2, if_pos rfl] at es
        rw [es] at bl
        exact bl
      · rw [b2, if_neg (by simp)] at es
        rw [es] at bl
        exact bl
    refine ⟨k1.trans b1, z, ?_⟩
    apply (best hu.1).2.2
    intro r hr h0
    have := ((hT l hl).2.2 r hr).1
    rw [z] at h0
    omega
  · intro hw hu
    obtain ⟨k1, k2, k3⟩ := keep l.id
    have no : ∀ x ∈ (run {} ops).links.vals, x.id = l.id → ¬ InUse x := by
      intro x hx e hu'
      have := links_at inv x hx
      rw [e, links_at inv l hl] at this
      cases this
      exact hu hu'
    have := e2.rest l.id no
    refine ⟨m, f1, ?_, ?_, ?_, ?_⟩
    · rw [k1, this, hm]
    · rw [k2, this, hm]
    · rw [k3, this, hm]
    · rw [e7 l hl hw hu, ← hm, f2]

/-! ## Powers go down only -/

/-- What a round does to the power of a link that stays on. -/
theorem step_le {R : RadioEnv} {t : Topology} {M M' : LinkId → Meas} {l : Link}
    (hT : R.table l.rx ≠ [] ∧ StrictTable (R.table l.rx) ∧
      ∀ r ∈ R.table l.rx, 0 < r.mcs ∧ 0 ≤ r.snr ∧ 0 ≤ r.txBackoff)
    (hr : Rnd t R M M' l) (q q' : ℚ) (hq : (M l.id).power = .val q) (hq' : (M' l.id).power = .val q') :
    (∀ lo ∈ R.minTx l.tx, lo ≤ q') ∧ ((∀ lo ∈ R.minTx l.tx, lo ≤ q) → q' ≤ q) ∧
    ∃ k s, 0 < k ∧ snrFromMcs k (R.table l.rx) = .ok s ∧
      s ≤ q' + R.gain l.id - noiseAndInterference t R M l ∧
      q' ≤ R.maxTx l.tx - backoffOf k (R.table l.rx) ∧ ∃ r ∈ R.table l.rx, k ≤ r.mcs := by
  obtain ⟨lev, k, p, e1, e2, e3⟩ := hr.2 q hq
  generalize hN : noiseAndInterference t R M l = N at e1 e2 ⊢
  obtain ⟨k', p', f1, f2, f3, f4, f5⟩ := adjustTxPower_spec hT.1 (R.minTx l.tx) (R.maxTx l.tx) (R.gain l.id) N lev
  have := ok_of_ok f1 e2
  cases this
  rw [hq'] at e3
  rcases f5 with ⟨rfl, rfl⟩ | ⟨f5, s, f6, f7, f8⟩
  · cases e3
  · have hqq : q' = neededPower (R.minTx l.tx) (R.gain l.id) N s := by
      rw [f7] at e3
      exact Db.val.inj e3
    rw [hqq]
    obtain ⟨n1, n2⟩ := neededPower_ge (R.minTx l.tx) (R.gain l.id) N s
    obtain ⟨lev', g1, g2⟩ := mcsFromSnr_spec (R.table l.rx) hT.1 (q + R.gain l.id - N)
    have := ok_of_ok g1 e1
    subst this
    rcases g2 with ⟨⟨s0, t1, t2⟩, _⟩ | ⟨g2, _⟩
    · obtain ⟨r0, hr0, hr1, hr2⟩ := (threshold_iff_row hT.2.1.1 _ _).1 t1
      refine ⟨n1, fun hlo => ?_, k, s, f5, f6, n2, f8, r0, hr0, by omega⟩
      apply neededPower_least _ _ _ _ _ hlo
      obtain ⟨s', j1, j2⟩ := snrFromMcs_spec hT.1 hT.2.1 k
      have := ok_of_ok j1 f6
      subst this
      rcases j2 with ⟨r, hr3, hr4, hr5, _⟩ | ⟨j2, _⟩
      · have : r.snr ≤ r0.snr := by
          rcases lt_or_eq_of_le (show r.mcs ≤ r0.mcs by omega) with h | h
          · exact (hT.2.1.2 r hr3 r0 hr0 h).le
          · have : r = r0 := List.inj_on_of_nodup_map hT.2.1.1 hr3 hr0 h
            rw [this]
        linarith
      · have := (hT.2.2 r0 hr0).2.1
        rw [j2]
        linarith
    · omega

/-- Powers of links in use with sectors are ordered. -/
def PowersLe (t : Topology) (p p' : LinkId → Db) : Prop :=
  ∀ x ∈ t.links.vals, InUse x → x.sectors ≠ none →
    p x.id = .off ∨ ∃ a b, p x.id = .val a ∧ p' x.id = .val b ∧ a ≤ b

theorem average_mono {α : Type} (L : List α) (f g : α → ℚ) (h : ∀ a ∈ L, f a ≤ g a) :
    average (L.map f) ≤ average (L.map g) := by
  unfold average
  rw [List.length_map, List.length_map]
  exact div_le_div_of_nonneg_right (List.sum_le_sum h) (by positivity)

theorem interference_mono {R : RadioEnv} (hR : Scale R) {t : Topology} {p p' : LinkId → Db}
    (h : PowersLe t p p') (r : Link) : interferenceOn t R p r ≤ interferenceOn t R p' r := by
  unfold interferenceOn
  apply List.sum_le_sum
  intro P _
  apply average_mono
  intro x hx
  have hx := List.mem_filter.1 hx
  have hs : Source P r x := by simpa using hx.2
  obtain ⟨hu, _, a, b, c, d, _, _, hsx, _⟩ := hs
  rcases h x hx.1 hu (by rw [hsx]; simp) with h | ⟨a, b, h1, h2, h3⟩
  · rw [h]
    exact linDb_nonneg hR _
  · rw [h1, h2]
    exact hR.lin_mono _ _ (by linarith)

theorem nai_mono {R : RadioEnv} (hR : Scale R) {t : Topology} {M M' : LinkId → Meas}
    (h : PowersLe t (fun i => (M i).power) (fun i => (M' i).power)) (l : Link) :
    noiseAndInterference t R M l ≤ noiseAndInterference t R M' l := by
  unfold noiseAndInterference
  have h1 := interference_mono hR h l
  have h2 := interference_nonneg hR t (fun i => (M i).power) l
  have h3 := hR.pos (R.noise l.rx)
  exact hR.log_mono _ _ (by linarith) (by linarith)

/-- The invariant: the minimum power is kept and the full-power estimate not exceeded. -/
def Bounded (t : Topology) (R : RadioEnv) (M : LinkId → Meas) : Prop :=
  ∀ l ∈ t.links.vals, InUse l → l.sectors ≠ none → ∀ q, (M l.id).power = .val q →
    (∀ lo ∈ R.minTx l.tx, lo ≤ q) ∧ ∃ m f, fullPower R l = .ok m ∧ m.power = .val f ∧ q ≤ f

theorem bounded_full {t : Topology} {R : RadioEnv} (hT : TablesOk t R)
    (hm : ∀ s, ∀ lo ∈ R.minTx s, lo ≤ R.maxTx s) (M1 : LinkId → Meas)
    (h : ∀ l ∈ t.links.vals, fullPower R l = .ok (M1 l.id)) : Bounded t R M1 := by
  intro l hl hu cs q hq
  obtain ⟨m, f1, _, _, _, f5⟩ := fullPower_ok R l (hT l hl).1
  have := ok_of_ok f1 (h l hl)
  subst this
  obtain ⟨q', k, a, _, _, b, c⟩ := f5 hu.1 cs
  rw [a] at hq
  cases hq
  refine ⟨?_, _, q, f1, a, le_rfl⟩
  rcases c with rfl | c
  · intro lo hlo
    have h0 : backoffOf 0 (R.table l.rx) = 0 := backoffOf_absent fun r hr e => by
      have := ((hT l hl).2.2 r hr).1
      omega
    rw [b, h0, sub_zero]
    exact hm _ lo hlo
  · exact c

theorem bounded_step {t : Topology} {R : RadioEnv} (hT : TablesOk t R) {M1 M M' : LinkId → Meas}
    (hB : Basic t R M1 M) (hq : Bounded t R M)
    (hr : ∀ l ∈ t.links.vals, InUse l → l.sectors ≠ none → Rnd t R M M' l) : Bounded t R M' := by
  intro l hl hu cs q' hq'
  have hrl := hr l hl hu cs
  cases hp : (M l.id).power with
  | nan => exact absurd hp (hB.on l hl hu cs).2.2
  | off => rw [hrl.1 hp] at hq'; cases hq'
  | val q =>
    obtain ⟨h1, m, f, h2, h3, h4⟩ := hq l hl hu cs q hp
    obtain ⟨s1, s2, _⟩ := step_le (hT l hl) hrl q q' hp hq'
    exact ⟨s1, m, f, h2, h3, (s2 h1).trans h4⟩

theorem rounds_le {t : Topology} {R : RadioEnv} (hT : TablesOk t R) {M1 M M' : LinkId → Meas}
    (hB : Basic t R M1 M) (hB' : Basic t R M1 M') (hq : Bounded t R M)
    (hr : ∀ l ∈ t.links.vals, InUse l → l.sectors ≠ none → Rnd t R M M' l) :
    PowersLe t (fun i => (M' i).power) (fun i => (M i).power) := by
  intro l hl hu cs
  have hrl := hr l hl hu cs
  cases hp' : (M' l.id).power with
  | nan => exact absurd hp' (hB'.on l hl hu cs).2.2
  | off => exact Or.inl hp'
  | val q' =>
    right
    cases hp : (M l.id).power with
    | nan => exact absurd hp (hB.on l hl hu cs).2.2
    | off => rw [hrl.1 hp] at hp'; cases hp'
    | val q =>
      obtain ⟨_, s2, _⟩ := step_le (hT l hl) hrl q q' hp hp'
      exact ⟨q', q, hp', hp, s2 (hq l hl hu cs q hp).1⟩

/-- **C116 (partial).** A link in use that is left on sends with at least the minimum
power of its device and at most the power of the full-power estimate; its SINR meets the
threshold of a level of the table, no higher than the reported one, whose back-off the
power leaves room for (or, for a power chosen below the lowest level, SINR is at least
0 dB). Missing: the back-off of the reported level itself. -/
theorem C116_power_partial (ops : List Op) (R : RadioEnv) (hR : Scale R) (n : ℤ) (M0 M : LinkId → Meas)
    (ends : SectorsOnEnds (run {} ops)) (hT : TablesOk (run {} ops) R)
    (hC : ∀ s, Consecutive (R.table s)) (hm : ∀ s, ∀ lo ∈ R.minTx s, lo ≤ R.maxTx s)
    (h : updateLinkCaps (run {} ops) R n M0 = .ok M)
    (l : Link) (hl : l ∈ (run {} ops).links.vals) (hu : InUse l) (cs : l.sectors ≠ none)
    (q : ℚ) (hq : (M l.id).power = .val q) :
    (∀ lo ∈ R.minTx l.tx, lo ≤ q) ∧ q ≤ R.maxTx l.tx ∧
    (∃ m f, fullPower R l = .ok m ∧ m.power = .val f ∧ q ≤ f) ∧
    ∃ s, (M l.id).sinr = .val s ∧
      ((∃ r ∈ R.table l.rx, r.mcs ≤ (M l.id).mcs ∧ r.snr ≤ s ∧ q ≤ R.maxTx l.tx - r.txBackoff) ∨
        0 ≤ s) := by
  have inv := Inv.empty.run ops
  have hT' := fun l hl => (hT l hl).1
  obtain ⟨hn, ns⟩ := not_stuck ends hT h
  obtain ⟨M', M1, M2, e, e1, e2, e3, e4, keep, e5, e6, _⟩ := update_spec inv ends hT' ns hn M0
    (Bounded (run {} ops) R) (bounded_full hT hm)
    (fun _ _ _ hB _ hq hr => bounded_step hT hB hq hr)
  have := ok_of_ok h e
  subst this
  have hq2 : (M2 l.id).power = .val q := (keep l.id).1.symm.trans hq
  obtain ⟨b1, b2⟩ := e3 l hl hu cs q hq2
  obtain ⟨Mp, p1, p2, p3⟩ := e4 l hl hu
  have hrl := p3 l hl hu cs
  cases hp : (Mp l.id).power with
  | nan => exact absurd hp (p1.on l hl hu cs).2.2
  | off => rw [hrl.1 hp] at hq2; cases hq2
  | val q0 =>
    obtain ⟨_, _, k, s, k1, k2, k3, k4, r', y1, y2⟩ := step_le (hT l hl) hrl q0 q hp hq2
    have mono := nai_mono hR (rounds_le hT p1 e2 p2 p3) l
    have same : noiseAndInterference (run {} ops) R M l = noiseAndInterference (run {} ops) R M2 l := by
      unfold noiseAndInterference
      have : (fun i => (M i).power) = (fun i => (M2 i).power) := funext fun i => (keep i).1
      rw [this]
    have hs : (M l.id).sinr = .val (q + R.gain l.id - noiseAndInterference (run {} ops) R M2 l) := by
      have es := e5 l hl hu
      unfold sinrSpec at es
      have r0 : (M l.id).rsl = .val (q + R.gain l.id) := by
        rw [(keep l.id).2.1, (e2.on l hl hu cs).1, hq2]; rfl
      rw [r0, if_neg (by simp)] at es
      rw [es, ← same]
      rfl
    have hb : 0 ≤ backoffOf k (R.table l.rx) := by
      by_cases c : ∃ r ∈ R.table l.rx, r.mcs = k
      · obtain ⟨r, hr, rfl⟩ := c
        rw [backoffOf_row (hT l hl).2.1.1 hr]
        exact ((hT l hl).2.2 r hr).2.2
      · rw [backoffOf_absent fun r hr e => c ⟨r, hr, e⟩]
    refine ⟨b1, by linarith, b2, _, hs, ?_⟩
    obtain ⟨s', j1, j2⟩ := snrFromMcs_spec (hT l hl).1 (hT l hl).2.1 k
    have := ok_of_ok j1 k2
    subst this
    rcases j2 with ⟨r, r1, r2, r3, r4⟩ | ⟨j2, j3⟩
    · left
      have hsup : r.snr ≤ q + R.gain l.id - noiseAndInterference (run {} ops) R M2 l := by
        rw [r2]; linarith
      have bl := (e6 l hl hu.1).1
      rw [hs] at bl
      have sup : Supports (R.table l.rx) (q + R.gain l.id - noiseAndInterference (run {} ops) R M2 l) r.mcs :=
        ⟨r.snr, (threshold_iff_row (hT l hl).2.1.1 _ _).2 ⟨r, r1, rfl, rfl⟩, hsup⟩
      have hle : r.mcs ≤ (M l.id).mcs := by
        rcases bl with ⟨_, b⟩ | ⟨_, b⟩
        · exact b _ sup
        · exact absurd sup (b _)
      refine ⟨r, r1, hle, hsup, ?_⟩
      obtain ⟨r'', z1, z2⟩ := hC _ r r1 r' y1 k r3 y2
      have := r4 r'' z1 (by omega)
      have er : r.mcs = k := by omega
      rw [← er, backoffOf_row (hT l hl).2.1.1 r1] at k4
      exact k4
    · right
      rw [j2] at k3
      linarith

/-! ## Examples -/

/-- An existence statement about a result from a computed check. -/
theorem ok_of_check {α : Type} {r : Except Err α} {P : α → Prop} [DecidablePred P]
    (h : r.toOption.any (fun x => decide (P x)) = true) : ∃ x ∈ r.toOption, P x := by
  cases hr : r.toOption with
  | none => rw [hr] at h; cases h
  | some x =>
    rw [hr] at h
    exact ⟨x, rfl, by simpa using h⟩

/-- A check of `TablesOk` for one table that all devices share. -/
theorem tables_of (t : Topology) (gain : LinkId → ℚ) (tbl : List McsRow) (lo : Option ℚ) (hi : ℚ)
    (h0 : tbl ≠ []) (h1 : StrictTable tbl) (h2 : ∀ r ∈ tbl, 0 < r.mcs ∧ 0 ≤ r.snr ∧ 0 ≤ r.txBackoff) :
    TablesOk t (toyEnv gain tbl lo hi) := fun _ _ => ⟨h0, h1, h2⟩

/-- Gain -60 dB on the links, -300 dB across. -/
def farGain (i : LinkId) : ℚ := if i = ⟨"A", "B"⟩ ∨ i = ⟨"C", "D"⟩ then -60 else -300

/-- Two links in use that hardly disturb each other: both keep the best level of the
table, the cross links, not in use, the full power. -/
example : ∃ M ∈ (updateLinkCaps (run {} crossOps) (toyEnv farGain defaultRateTable none 20) 10 crossMeas).toOption,
    (M ⟨"A", "B"⟩).mcs = 12 ∧ (M ⟨"A", "B"⟩).capacity = 9/5 ∧ (M ⟨"C", "D"⟩).mcs = 12 := by
  exact ok_of_check (by decide +kernel)

/-- The hypotheses of the theorems above are met by this example. -/
example : SectorsOnEnds (run {} crossOps) ∧ Scale (toyEnv farGain defaultRateTable none 20) ∧
    TablesOk (run {} crossOps) (toyEnv farGain defaultRateTable none 20) ∧
    (∀ s, Consecutive ((toyEnv farGain defaultRateTable none 20).table s)) ∧
    (∀ s, ∀ lo ∈ (toyEnv farGain defaultRateTable none 20).minTx s,
      lo ≤ (toyEnv farGain defaultRateTable none 20).maxTx s) :=
  ⟨cross_ends, toy_scale _ _ _ _,
    tables_of _ _ _ _ _ (by decide +kernel) defaultRateTable_strict (by decide +kernel),
    fun _ => defaultRateTable_consecutive, fun _ lo h => by cases h⟩

/-- A single link with an antenna of limited radiated power. -/
def loneOps : List Op := [
  .addSite { id := "A", siteType := .pop, status := .proposed, polarity := .even } false,
  .addSite { id := "B", siteType := .dn, status := .proposed, polarity := .odd } false,
  .addSector { site := "A", node := 0, pos := 0, status := .proposed, channel := 0 },
  .addSector { site := "B", node := 0, pos := 0, status := .proposed, channel := 0 },
  .addLink { tx := "A", rx := "B", status := .proposed, sectors := some (⟨"A", 0, 0, .dn⟩, ⟨"B", 0, 0, .dn⟩) }]

/-- **C116** fails in part: the device may send at most 15 dBm (an antenna of 30 dBi under
a radiated power limit of 45 dBm) and at least 14 dBm. Level 4 has to back off by 5 dB,
so power control chooses level 3 at 14 dBm; with this power the SINR is 6 dB, and level 4
is reported, at a power that does not back off. -/
theorem C116_backoff_violation :
    ∃ M ∈ (updateLinkCaps (run {} loneOps) (toyEnv (fun _ => -107) [⟨3, 3, 10, 0⟩, ⟨4, 5, 20, 5⟩] (some 14) 15)
      10 crossMeas).toOption,
    maxTxPower { maximumTxPower := 20, minimumTxPower := some 14, antennaBoresightGain := 30 } (some 45) = 15 ∧
    (M ⟨"A", "B"⟩).mcs = 4 ∧ (M ⟨"A", "B"⟩).power = .val 14 ∧ ¬ (14 : ℚ) ≤ 15 - 5 := by
  exact ok_of_check (by decide +kernel)

/-- **C116** fails in part: two links that disturb each other are both switched off for
good in the first round, though either alone would carry the best level. -/
theorem C116_switched_off_violation :
    (∃ M ∈ (updateLinkCaps (run {} crossOps) (toyEnv (fun _ => -60) defaultRateTable none 20) 10 crossMeas).toOption,
    ((M ⟨"A", "B"⟩).power = .off ∧ (M ⟨"A", "B"⟩).capacity = 0 ∧
      (M ⟨"C", "D"⟩).power = .off ∧ (M ⟨"C", "D"⟩).capacity = 0)) ∧
    ∃ M ∈ (updateLinkCaps (run {} loneOps) (toyEnv (fun _ => -60) defaultRateTable none 20) 10 crossMeas).toOption,
      (M ⟨"A", "B"⟩).mcs = 12 :=
  ⟨ok_of_check (by decide +kernel), ok_of_check (by decide +kernel)⟩

/-- **C116** fails in part: a link in use without sectors ends with a signal level that is
not a number. -/
theorem C116_nan_violation :
    ∃ M ∈ (updateLinkCaps (run {} [
      .addSite { id := "A", siteType := .pop, status := .proposed } false,
      .addSite { id := "B", siteType := .dn, status := .proposed } false,
      .addLink { tx := "A", rx := "B", status := .proposed }])
      (toyEnv (fun _ => -60) defaultRateTable none 20) 10 crossMeas).toOption,
    (M ⟨"A", "B"⟩).rsl = .nan ∧ (M ⟨"A", "B"⟩).snr = .nan ∧ (M ⟨"A", "B"⟩).sinr = .nan := by
  exact ok_of_check (by decide +kernel)

end Sinr
end Verif
