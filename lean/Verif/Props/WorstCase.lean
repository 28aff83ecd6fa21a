import Verif.Model.WorstCase
import Verif.Props.PowerControl
import Verif.Lemmas.Zones

/-! # C182: the interference assumed by the optimizer is a worst case -/

namespace Verif
open Topology Spec Sinr

/-! ## Specification -/

/-- The gain from the transmitting to the receiving antenna of a path when both look along their sectors. -/
def Spec.sectorGain (R : RadioEnv) (P : Link) : ℚ :=
  R.pathGain P.id (R.txDev P.id) (R.rxDev P.id) (R.elDev P.id) (-(R.elDev P.id))

/-! ## Lemmas -/

theorem foldSet_none {ν : Type} (g : Link → ν) (k : SiteId × SiteId) : ∀ (ls : List Link) (d : Dict (SiteId × SiteId) ν),
    (∀ l ∈ ls, (l.tx, l.rx) ≠ k) → (ls.foldl (fun d l => d.set (l.tx, l.rx) (g l)) d).get? k = d.get? k
  | [], _, _ => rfl
  | a :: r, d, h => by
    rw [List.foldl_cons, foldSet_none g k r _ (fun l hl => h l (List.mem_cons_of_mem _ hl)), Dict.get?_set,
      if_neg (fun e => h a (by simp) e)]

theorem foldSet_some {ν : Type} (g : Link → ν) (l : Link) : ∀ (ls : List Link) (d : Dict (SiteId × SiteId) ν),
    l ∈ ls → (∀ l' ∈ ls, (l'.tx, l'.rx) = (l.tx, l.rx) → l' = l) →
    (ls.foldl (fun d l => d.set (l.tx, l.rx) (g l)) d).get? (l.tx, l.rx) = some (g l)
  | [], _, h, _ => by cases h
  | a :: r, d, h, u => by
    rw [List.foldl_cons]
    by_cases c : l ∈ r
    · exact foldSet_some g l r _ c (fun l' h' => u l' (List.mem_cons_of_mem _ h'))
    · have e : l = a := (List.mem_cons.1 h).resolve_right c
      subst e
      rw [foldSet_none g _ r, Dict.get?_set, if_pos rfl]
      intro l' h' e
      exact c (u l' (List.mem_cons_of_mem _ h') e ▸ h')

theorem links_of_pair (ops : List Op) {a b : SiteId} {l : Link} (hl : (run {} ops).links.get? ⟨a, b⟩ = some l) :
    l.tx = a ∧ l.rx = b ∧ l ∈ (run {} ops).links.vals ∧
      ∀ l' ∈ (run {} ops).links.vals, (l'.tx, l'.rx) = (l.tx, l.rx) → l' = l := by
  have inv := Inv.empty.run ops
  have e := inv.link_id _ _ hl
  injection e with e1 e2
  refine ⟨e1.symm, e2.symm, List.mem_map.2 ⟨_, Dict.mem_of_get? _ hl, rfl⟩, fun l' h' e => ?_⟩
  obtain ⟨i, hi⟩ := mem_vals_get? inv.nd_links h'
  have e' := inv.link_id _ _ hi
  injection e with e3 e4
  rw [e', e3, e4, ← e1, ← e2, hl] at hi
  exact (Option.some.inj hi).symm

/-! ## Theorems -/

/-- **C182.** The optimizer has a value for exactly the pairs of sites with a link. No interference comes over a
wired link or a link without sectors. Over every other link the value is what arrives at full power; hence no power
that power control settles for, on any link from the same site, brings more over this path. -/
theorem C182_worst_case (ops : List Op) (R : RadioEnv) (hR : Scale R) :
    let t := run {} ops
    let D := interferingLinear t R (linkInterference t R)
    (∀ a b, D.get? (a, b) = none ↔ t.links.get? ⟨a, b⟩ = none) ∧
    ∀ a b P, t.links.get? ⟨a, b⟩ = some P →
      ((P.isWireless = false ∨ P.sectors = none) → D.get? (a, b) = some 0) ∧
      (P.isWireless = true → P.sectors ≠ none →
        ∃ w, D.get? (a, b) = some w ∧ w = R.lin (R.maxTx a + sectorGain R P) ∧
        ∀ (n : ℤ) (M0 M : LinkId → Meas), SectorsOnEnds t → TablesOk t R → (∀ s, Consecutive (R.table s)) →
          (∀ s, ∀ lo ∈ R.minTx s, lo ≤ R.maxTx s) → updateLinkCaps t R n M0 = .ok M →
          ∀ x ∈ t.links.vals, x.tx = a → InUse x → x.sectors ≠ none →
            R.linDb ((M x.id).power.add (.val (sectorGain R P))) ≤ w) := by
  intro t D
  have val : ∀ a b P, t.links.get? ⟨a, b⟩ = some P → D.get? (a, b) = some (R.linDb (worstRsl R P)) := by
    intro a b P hP
    obtain ⟨rfl, rfl, hm, hu⟩ := links_of_pair ops hP
    have h1 : (linkInterference t R).get? (P.tx, P.rx) = some (worstRsl R P) :=
      foldSet_some (worstRsl R) P _ _ hm hu
    have h2 := foldSet_some (fun l => match (linkInterference t R).get? (l.tx, l.rx) with
      | some x => R.linDb x
      | none => 0) P t.links.vals [] hm hu
    simp only [h1] at h2
    exact h2
  refine ⟨fun a b => ⟨fun h => ?_, fun h => ?_⟩, fun a b P hP => ⟨fun h => ?_, fun h1 h2 => ?_⟩⟩
  · cases c : t.links.get? ⟨a, b⟩ with
    | none => rfl
    | some P => rw [val a b P c] at h; cases h
  · have := foldSet_none (fun l => match (linkInterference t R).get? (l.tx, l.rx) with
      | some x => R.linDb x
      | none => 0) (a, b) t.links.vals [] (by
        intro l hl e
        have inv := Inv.empty.run ops
        obtain ⟨i, hi⟩ := mem_vals_get? inv.nd_links hl
        have e' := inv.link_id _ _ hi
        injection e with e3 e4
        rw [e', e3, e4] at hi
        exact absurd (h.symm.trans hi) (by simp))
    exact this
  · rw [val a b P hP]
    unfold worstRsl
    rcases h with h | h
    · rw [h]; rfl
    · rw [h]; cases P.isWireless <;> rfl
  · obtain ⟨s, hs⟩ := Option.ne_none_iff_exists'.1 h2
    have ha := (links_of_pair ops hP).1
    refine ⟨_, val a b P hP, ?_, ?_⟩
    · unfold worstRsl
      rw [h1, hs, ha]
      rfl
    · intro n M0 M ends hT hC hm hM x hx hxa hu hxs
      have e : worstRsl R P = .val (R.maxTx a + sectorGain R P) := by
        unfold worstRsl
        rw [h1, hs, ha]
        rfl
      rw [e]
      show _ ≤ R.lin _
      rcases (C116_measurements ops R n M0 M ends hT hM x hx).2.2.1 hu hxs with ⟨hp, -⟩ | ⟨q, hp, -⟩
      · rw [hp]
        exact le_of_lt (hR.pos _)
      · have hq := (C116_power_partial ops R hR n M0 M ends hT hC hm hM x hx hu hxs q hp).2.1
        rw [hp]
        show R.lin _ ≤ R.lin _
        apply hR.lin_mono
        rw [← hxa]
        linarith

/-! ## Example -/

/-- The path `A -> D` across: the optimizer assumes the interference of 20 dBm; with power control the link
`A -> B` sends with less. -/
example :
    let R := toyEnv farGain defaultRateTable none 20
    Scale R ∧ SectorsOnEnds (run {} crossOps) ∧ TablesOk (run {} crossOps) R ∧
    (∀ s, Consecutive (R.table s)) ∧ (∀ s, ∀ lo ∈ R.minTx s, lo ≤ R.maxTx s) ∧
    (interferingLinear (run {} crossOps) R (linkInterference (run {} crossOps) R)).get? ("A", "D") =
      some (R.lin (20 - 300)) ∧
    ∃ M ∈ (updateLinkCaps (run {} crossOps) R 10 crossMeas).toOption,
      (M ⟨"A", "B"⟩).power ≠ .off ∧ (M ⟨"A", "B"⟩).power ≠ .val 20 := by
  intro R
  exact ⟨toy_scale _ _ _ _, cross_ends,
    tables_of _ _ _ _ _ (by decide +kernel) defaultRateTable_strict (by decide +kernel),
    fun _ => defaultRateTable_consecutive, (fun _ lo h => by cases h), by decide +kernel,
    ok_of_check (by decide +kernel)⟩

end Verif
