import Verif.Props.Sinr
import Verif.Lemmas.Rf

/-! # Lemmas on transmit power control (for C116) -/

namespace Verif
namespace Sinr
open Topology Spec

theorem ok_of_ok {α : Type} {r : Except Err α} {a b : α} (h : r = .ok a) (h' : r = .ok b) : a = b := by
  rw [h] at h'; cases h'; rfl

/-! ## Full power -/

theorem fullPower_ok (R : RadioEnv) (l : Link) (hT : R.table l.rx ≠ []) :
    ∃ m, fullPower R l = .ok m ∧ m.sinr = m.snr ∧
      (l.isWireless = false → m = ⟨0, .off, .off, .off, R.popCapacity, .off⟩) ∧
      (l.isWireless = true → l.sectors = none → m.rsl = .off ∧ m.power = .off) ∧
      (l.isWireless = true → l.sectors ≠ none → ∃ q k, m.power = .val q ∧ m.rsl = .val (q + R.gain l.id) ∧
        m.snr = .val (q + R.gain l.id - R.noise l.rx) ∧ q = R.maxTx l.tx - backoffOf k (R.table l.rx) ∧
        (k = 0 ∨ ∀ lo ∈ R.minTx l.tx, lo ≤ q)) := by
  unfold fullPower
  cases hw : l.isWireless with
  | false => exact ⟨_, rfl, rfl, fun _ => rfl, fun h => by (cases h), fun h => by (cases h)⟩
  | true =>
    simp only [Bool.not_true, Bool.false_eq_true, if_false]
    cases hs : l.sectors with
    | none => exact ⟨_, rfl, rfl, fun h => by (cases h), fun _ _ => ⟨rfl, rfl⟩, fun _ h => absurd rfl h⟩
    | some p =>
      dsimp only
      unfold estimate
      obtain ⟨st, e1, _⟩ := mcsFromSnr_spec (R.table l.rx) hT (R.maxTx l.tx + R.gain l.id - R.noise l.rx)
      obtain ⟨k, p, e2, h0, h1, h2, h3⟩ := adjustTxPower_spec hT (R.minTx l.tx) (R.maxTx l.tx) (R.gain l.id)
        (R.noise l.rx) st
      rw [e1]
      dsimp only
      rw [e2]
      dsimp only
      refine ⟨_, rfl, rfl, fun h => by (cases h), fun _ h => by (cases h), fun _ _ => ?_⟩
      refine ⟨_, k, rfl, rfl, rfl, rfl, ?_⟩
      rcases h3 with h3 | ⟨h3, s, h4, h5, h6⟩
      · exact Or.inl h3.1
      · exact Or.inr fun lo hlo => ((neededPower_ge _ _ _ _).1 lo hlo).trans h6

theorem addCapacities_spec (R : RadioEnv) : ∀ (L : List Link) (M : LinkId → Meas), (L.map Link.id).Nodup →
    (∀ l ∈ L, R.table l.rx ≠ []) → ∃ M', addCapacities R L M = .ok M' ∧
      (∀ l ∈ L, fullPower R l = .ok (M' l.id)) ∧ ∀ i, i ∉ L.map Link.id → M' i = M i := by
  intro L
  induction L with
  | nil => intro M _ _; exact ⟨M, rfl, fun l hl => by simp at hl, fun _ _ => rfl⟩
  | cons x L ih =>
    intro M hn hT
    rw [List.map_cons, List.nodup_cons] at hn
    obtain ⟨m, e, _⟩ := fullPower_ok R x (hT x List.mem_cons_self)
    obtain ⟨M', e1, e2, e3⟩ := ih (put M x.id m) hn.2 (fun l hl => hT l (List.mem_cons_of_mem _ hl))
    refine ⟨M', ?_, ?_, ?_⟩
    · unfold addCapacities; rw [e]; exact e1
    · intro l hl
      rcases List.mem_cons.1 hl with rfl | hl
      · rw [e3 _ hn.1, put_self, e]
      · exact e2 l hl
    · intro i hi
      rw [List.map_cons, List.mem_cons, not_or] at hi
      rw [e3 i hi.2, put_other _ _ hi.1]

/-! ## One link -/

theorem tpcLink_off (R : RadioEnv) (g : Db) (l : Link) (m : Meas) (hT : R.table l.rx ≠ [])
    (h : m.sinr = .off ∨ m.sinr = .nan) :
    ∃ m' st, tpcLink R g l m = .ok (m', st) ∧ m'.power = .off ∧ m'.rsl = Db.add .off g ∧
      m'.snr = (Db.add .off g).sub (.val (R.noise l.rx)) := by
  unfold tpcLink
  have hm : mcsOf m.sinr (R.table l.rx) = .ok 0 := by
    rcases h with h | h <;> rw [h] <;> simp [mcsOf, hT]
  have hsub : m.rsl.sub m.sinr = .nan := by
    rcases h with h | h <;> rw [h] <;> cases m.rsl <;> rfl
  rw [hm, hsub]
  have : adjust 0 (R.table l.rx) (R.minTx l.tx) (R.maxTx l.tx) g .nan = .ok (0, .off) := by
    unfold adjust
    cases g <;> rfl
  dsimp only
  rw [this]
  exact ⟨_, _, rfl, rfl, rfl, rfl⟩

theorem tpcLink_on (R : RadioEnv) (g N q : ℚ) (l : Link) (m : Meas) (hT : R.table l.rx ≠ [])
    (hr : m.rsl = .val (q + g)) (hs : m.sinr = .val (q + g - N)) :
    ∃ m' st lev k p, tpcLink R (.val g) l m = .ok (m', st) ∧
      mcsFromSnr (q + g - N) (R.table l.rx) = .ok lev ∧
      adjustTxPower lev (R.table l.rx) (R.minTx l.tx) (R.maxTx l.tx) g N = .ok (k, p) ∧
      m'.power = .ofPower p ∧ m'.rsl = (Db.ofPower p).add (.val g) ∧
      m'.snr = ((Db.ofPower p).add (.val g)).sub (.val (R.noise l.rx)) := by
  unfold tpcLink
  obtain ⟨lev, e1, _⟩ := mcsFromSnr_spec (R.table l.rx) hT (q + g - N)
  obtain ⟨k, p, e2, _⟩ := adjustTxPower_spec hT (R.minTx l.tx) (R.maxTx l.tx) g N lev
  have hN : m.rsl.sub m.sinr = .val N := by
    rw [hr, hs]
    show Db.val (q + g - (q + g - N)) = _
    rw [sub_sub_cancel]
  have hm : mcsOf m.sinr (R.table l.rx) = .ok lev := by rw [hs]; exact e1
  rw [hm, hN]
  have : adjust lev (R.table l.rx) (R.minTx l.tx) (R.maxTx l.tx) (.val g) (.val N) = .ok (k, .ofPower p) := by
    unfold adjust; dsimp only; rw [e2]
  dsimp only
  rw [this]
  exact ⟨_, _, lev, k, p, rfl, e1, e2, rfl, rfl, rfl⟩

theorem tpcRound_spec (R : RadioEnv) (g : LinkId → Db) : ∀ (L : List Link) (M : LinkId → Meas) (c : ℕ),
    (L.map Link.id).Nodup → (∀ l ∈ L, ∃ m' st, tpcLink R (g l.id) l (M l.id) = .ok (m', st)) →
    ∃ M' c', tpcRound R g L M c = .ok (M', c') ∧
      (∀ l ∈ L, ∃ st, tpcLink R (g l.id) l (M l.id) = .ok (M' l.id, st)) ∧
      ∀ i, i ∉ L.map Link.id → M' i = M i := by
  intro L
  induction L with
  | nil => intro M c _ _; exact ⟨M, c, rfl, fun l hl => by simp at hl, fun _ _ => rfl⟩
  | cons x L ih =>
    intro M c hn hT
    rw [List.map_cons, List.nodup_cons] at hn
    obtain ⟨m, st, e⟩ := hT x List.mem_cons_self
    have ne : ∀ l ∈ L, l.id ≠ x.id := fun l hl h => hn.1 (List.mem_map.2 ⟨l, hl, h⟩)
    obtain ⟨M', c', e1, e2, e3⟩ := ih (put M x.id m) (if st then c + 1 else c) hn.2 (by
      intro l hl
      rw [put_other _ _ (ne l hl)]
      exact hT l (List.mem_cons_of_mem _ hl))
    refine ⟨M', c', ?_, ?_, ?_⟩
    · unfold tpcRound; rw [e]; exact e1
    · intro l hl
      rcases List.mem_cons.1 hl with rfl | hl
      · rw [e3 _ hn.1, put_self]; exact ⟨st, e⟩
      · obtain ⟨st', h⟩ := e2 l hl
        rw [put_other _ _ (ne l hl)] at h
        exact ⟨st', h⟩
    · intro i hi
      rw [List.map_cons, List.mem_cons, not_or] at hi
      rw [e3 i hi.2, put_other _ _ hi.1]

/-! ## Rounds -/

theorem inUse_mem {t : Topology} (l : Link) : l ∈ linksInUse t ↔ l ∈ t.links.vals ∧ InUse l := by
  unfold linksInUse InUse
  rw [List.mem_filter, Bool.and_eq_true, and_comm (a := l.status.active = true)]

/-- What holds of the measurements before and after every round. -/
structure Basic (t : Topology) (R : RadioEnv) (M1 M : LinkId → Meas) : Prop where
  rest : ∀ i, (∀ l ∈ t.links.vals, l.id = i → ¬ InUse l) → M i = M1 i
  on : ∀ l ∈ t.links.vals, InUse l → l.sectors ≠ none →
    (M l.id).rsl = (M l.id).power.add (.val (R.gain l.id)) ∧
    (M l.id).snr = (M l.id).rsl.sub (.val (R.noise l.rx)) ∧ (M l.id).power ≠ .nan
  out : ∀ l ∈ t.links.vals, InUse l → l.sectors = none →
    (M l.id).power = .off ∧ ((M l.id).rsl = .off ∨ (M l.id).rsl = .nan)

/-- What one round does to the power of a link. -/
def Rnd (t : Topology) (R : RadioEnv) (M M' : LinkId → Meas) (l : Link) : Prop :=
  ((M l.id).power = .off → (M' l.id).power = .off) ∧
  ∀ q, (M l.id).power = .val q → ∃ lev k p,
    mcsFromSnr (q + R.gain l.id - noiseAndInterference t R M l) (R.table l.rx) = .ok lev ∧
    adjustTxPower lev (R.table l.rx) (R.minTx l.tx) (R.maxTx l.tx) (R.gain l.id)
      (noiseAndInterference t R M l) = .ok (k, p) ∧ (M' l.id).power = .ofPower p

theorem ofPower_ne_nan (p : WithBot ℚ) : Db.ofPower p ≠ .nan := by
  cases p <;> simp [Db.ofPower]

theorem round_spec {t : Topology} (inv : t.Inv) {R : RadioEnv} {G : GainMap} (hG : GoodMap t R G)
    (hT : ∀ l ∈ t.links.vals, R.table l.rx ≠ []) {M1 M : LinkId → Meas} (g : LinkId → Db)
    (hg : ∀ l ∈ t.links.vals, InUse l → (l.sectors ≠ none → g l.id = .val (R.gain l.id)) ∧
      (l.sectors = none → g l.id = .nan)) (hB : Basic t R M1 M) :
    ∃ M' c, tpcRound R g (linksInUse t) (analyzeWith t R G M) 0 = .ok (M', c) ∧ Basic t R M1 M' ∧
      ∀ l ∈ t.links.vals, InUse l → l.sectors ≠ none → Rnd t R M M' l := by
  obtain ⟨a1, a2⟩ := analyzeWith_spec inv hG M
  have nd : ((linksInUse t).map Link.id).Nodup := by
    unfold linksInUse
    exact (ids_nd inv).sublist (List.Sublist.map _ List.filter_sublist)
  -- one link
  have one : ∀ l ∈ t.links.vals, InUse l → ∃ m' st,
      tpcLink R (g l.id) l (analyzeWith t R G M l.id) = .ok (m', st) ∧
      (l.sectors = none → m'.power = .off ∧ m'.rsl = .nan) ∧
      (l.sectors ≠ none → m'.rsl = m'.power.add (.val (R.gain l.id)) ∧
        m'.snr = m'.rsl.sub (.val (R.noise l.rx)) ∧ m'.power ≠ .nan ∧
        ((M l.id).power = .off → m'.power = .off) ∧
        ∀ q, (M l.id).power = .val q → ∃ lev k p,
          mcsFromSnr (q + R.gain l.id - noiseAndInterference t R M l) (R.table l.rx) = .ok lev ∧
          adjustTxPower lev (R.table l.rx) (R.minTx l.tx) (R.maxTx l.tx) (R.gain l.id)
            (noiseAndInterference t R M l) = .ok (k, p) ∧ m'.power = .ofPower p) := by
    intro l hl hu
    rw [a2 l hl hu]
    by_cases cs : l.sectors = none
    · obtain ⟨h1, h2⟩ := hB.out l hl hu cs
      obtain ⟨m', st, e1, e2, e3, e4⟩ := tpcLink_off R (g l.id) l
        { M l.id with sinr := sinrSpec t R M l } (hT l hl) (by
          show sinrSpec t R M l = _ ∨ sinrSpec t R M l = _
          unfold sinrSpec
          rcases h2 with h2 | h2
          · rw [h2, if_pos rfl]; exact Or.inl rfl
          · rw [h2, if_neg (by simp)]; exact Or.inr rfl)
      refine ⟨m', st, e1, fun _ => ⟨e2, ?_⟩, fun h => absurd cs h⟩
      rw [e3, (hg l hl hu).2 cs]; rfl
    · obtain ⟨h1, h2, h3⟩ := hB.on l hl hu cs
      rw [(hg l hl hu).1 cs]
      cases hp : (M l.id).power with
      | nan => exact absurd hp h3
      | off =>
        rw [hp] at h1
        obtain ⟨m', st, e1, e2, e3, e4⟩ := tpcLink_off R (.val (R.gain l.id)) l
          { M l.id with sinr := sinrSpec t R M l } (hT l hl) (by
            show sinrSpec t R M l = _ ∨ sinrSpec t R M l = _
            unfold sinrSpec
            rw [h1]
            exact Or.inl (if_pos rfl))
        refine ⟨m', st, e1, fun h => absurd h cs, fun _ => ⟨?_, ?_, ?_, fun _ => e2, fun q h => by (cases h)⟩⟩
        · rw [e3, e2]
        · rw [e4, e3]
        · rw [e2]; simp
      | val q =>
        rw [hp] at h1
        obtain ⟨m', st, lev, k, p, e1, e2, e3, e4, e5, e6⟩ := tpcLink_on R (R.gain l.id)
          (noiseAndInterference t R M l) q l { M l.id with sinr := sinrSpec t R M l } (hT l hl) h1 (by
            show sinrSpec t R M l = _
            unfold sinrSpec
            rw [h1]
            exact if_neg (by simp [Db.add]))
        refine ⟨m', st, e1, fun h => absurd h cs, fun _ => ⟨?_, ?_, ?_, fun h => by (cases h), ?_⟩⟩
        · rw [e5, e4]
        · rw [e6, e5]
        · rw [e4]; exact ofPower_ne_nan p
        · intro q' hq'
          cases hq'
          exact ⟨lev, k, p, e2, e3, e4⟩
  obtain ⟨M', c, e1, e2, e3⟩ := tpcRound_spec R g (linksInUse t) (analyzeWith t R G M) 0 nd (by
    intro l hl
    obtain ⟨hl, hu⟩ := (inUse_mem l).1 hl
    obtain ⟨m', st, e, _⟩ := one l hl hu
    exact ⟨m', st, e⟩)
  have got : ∀ l ∈ t.links.vals, InUse l → (l.sectors = none → (M' l.id).power = .off ∧ (M' l.id).rsl = .nan) ∧
      (l.sectors ≠ none → (M' l.id).rsl = (M' l.id).power.add (.val (R.gain l.id)) ∧
        (M' l.id).snr = (M' l.id).rsl.sub (.val (R.noise l.rx)) ∧ (M' l.id).power ≠ .nan ∧
        ((M l.id).power = .off → (M' l.id).power = .off) ∧
        ∀ q, (M l.id).power = .val q → ∃ lev k p,
          mcsFromSnr (q + R.gain l.id - noiseAndInterference t R M l) (R.table l.rx) = .ok lev ∧
          adjustTxPower lev (R.table l.rx) (R.minTx l.tx) (R.maxTx l.tx) (R.gain l.id)
            (noiseAndInterference t R M l) = .ok (k, p) ∧ (M' l.id).power = .ofPower p) := by
    intro l hl hu
    obtain ⟨m', st, e, h⟩ := one l hl hu
    obtain ⟨st', e'⟩ := e2 l ((inUse_mem l).2 ⟨hl, hu⟩)
    have := ok_of_ok e e'
    cases this
    exact h
  refine ⟨M', c, e1, ⟨?_, ?_, ?_⟩, ?_⟩
  · intro i hi
    rw [e3, a1 i hi, hB.rest i hi]
    intro h
    obtain ⟨l, hl, e⟩ := List.mem_map.1 h
    obtain ⟨hl, hu⟩ := (inUse_mem l).1 hl
    exact hi l hl e hu
  · intro l hl hu cs
    obtain ⟨h1, h2, h3, _⟩ := (got l hl hu).2 cs
    exact ⟨h1, h2, h3⟩
  · intro l hl hu cs
    obtain ⟨h1, h2⟩ := (got l hl hu).1 cs
    exact ⟨h1, Or.inr h2⟩
  · intro l hl hu cs
    obtain ⟨_, _, _, h4, h5⟩ := (got l hl hu).2 cs
    exact ⟨h4, h5⟩

theorem loop_spec {t : Topology} (inv : t.Inv) {R : RadioEnv} {G : GainMap} (hG : GoodMap t R G)
    (hT : ∀ l ∈ t.links.vals, R.table l.rx ≠ []) {M1 : LinkId → Meas} (g : LinkId → Db)
    (hg : ∀ l ∈ t.links.vals, InUse l → (l.sectors ≠ none → g l.id = .val (R.gain l.id)) ∧
      (l.sectors = none → g l.id = .nan)) (Q : (LinkId → Meas) → Prop)
    (hQ : ∀ M M', Basic t R M1 M → Basic t R M1 M' → Q M →
      (∀ l ∈ t.links.vals, InUse l → l.sectors ≠ none → Rnd t R M M' l) → Q M') :
    ∀ (n : ℕ) (M : LinkId → Meas), Basic t R M1 M → Q M →
      ∃ M', tpcLoop t R G g (linksInUse t) (n + 1) M = .ok M' ∧ Basic t R M1 M' ∧ Q M' ∧
        ∃ Mp, Basic t R M1 Mp ∧ Q Mp ∧
          ∀ l ∈ t.links.vals, InUse l → l.sectors ≠ none → Rnd t R Mp M' l := by
  intro n
  induction n with
  | zero =>
    intro M hB hq
    obtain ⟨M', c, e1, e2, e3⟩ := round_spec inv hG hT g hg hB
    refine ⟨M', ?_, e2, hQ M M' hB e2 hq e3, M, hB, hq, e3⟩
    unfold tpcLoop
    rw [e1]
    dsimp only
    split
    · rfl
    · rfl
  | succ n ih =>
    intro M hB hq
    obtain ⟨M', c, e1, e2, e3⟩ := round_spec inv hG hT g hg hB
    have hq' := hQ M M' hB e2 hq e3
    by_cases cc : c = (linksInUse t).length
    · refine ⟨M', ?_, e2, hq', M, hB, hq, e3⟩
      unfold tpcLoop
      rw [e1]
      dsimp only
      rw [if_pos cc]
    · obtain ⟨M2, f1, f2, f3, f4⟩ := ih M' e2 hq'
      refine ⟨M2, ?_, f2, f3, f4⟩
      unfold tpcLoop
      rw [e1]
      dsimp only
      rw [if_neg cc]
      exact f1

theorem mcsOf_ok (x : Db) {tbl : List McsRow} (h : tbl ≠ []) : ∃ m, mcsOf x tbl = .ok m ∧ BestLevel tbl x m := by
  cases x with
  | nan => exact ⟨0, rfl, rfl⟩
  | off => exact ⟨0, by simp [mcsOf, h], rfl⟩
  | val q => exact mcsFromSnr_spec tbl h q

theorem finalCaps_spec (R : RadioEnv) : ∀ (L : List Link) (M : LinkId → Meas), (L.map Link.id).Nodup →
    (∀ l ∈ L, R.table l.rx ≠ []) → ∃ M', finalCaps R L M = .ok M' ∧
      (∀ l ∈ L, l.isWireless = true → ∃ k, BestLevel (R.table l.rx) (M l.id).sinr k ∧
        M' l.id = { M l.id with mcs := k, capacity := capacityOf k (R.table l.rx) }) ∧
      (∀ l ∈ L, l.isWireless = false → M' l.id = M l.id) ∧
      ∀ i, i ∉ L.map Link.id → M' i = M i := by
  intro L
  induction L with
  | nil =>
    intro M _ _
    exact ⟨M, rfl, fun l hl => by simp at hl, fun l hl => by simp at hl, fun _ _ => rfl⟩
  | cons x L ih =>
    intro M hn hT
    rw [List.map_cons, List.nodup_cons] at hn
    have ne : ∀ l ∈ L, l.id ≠ x.id := fun l hl h => hn.1 (List.mem_map.2 ⟨l, hl, h⟩)
    cases hw : x.isWireless with
    | false =>
      obtain ⟨M', e1, e2, e3, e4⟩ := ih M hn.2 (fun l hl => hT l (List.mem_cons_of_mem _ hl))
      refine ⟨M', ?_, ?_, ?_, ?_⟩
      · unfold finalCaps; rw [hw]; exact e1
      · intro l hl hl'
        rcases List.mem_cons.1 hl with rfl | hl
        · rw [hw] at hl'; cases hl'
        · exact e2 l hl hl'
      · intro l hl hl'
        rcases List.mem_cons.1 hl with rfl | hl
        · exact e4 _ hn.1
        · exact e3 l hl hl'
      · intro i hi
        rw [List.map_cons, List.mem_cons, not_or] at hi
        exact e4 i hi.2
    | true =>
      obtain ⟨k, hk, hk'⟩ := mcsOf_ok (M x.id).sinr (hT x List.mem_cons_self)
      obtain ⟨M', e1, e2, e3, e4⟩ := ih (put M x.id
        { M x.id with mcs := k, capacity := capacityOf k (R.table x.rx) }) hn.2
        (fun l hl => hT l (List.mem_cons_of_mem _ hl))
      refine ⟨M', ?_, ?_, ?_, ?_⟩
      · unfold finalCaps
        rw [hw]
        simp only [Bool.not_true, Bool.false_eq_true, if_false]
        rw [hk]
        exact e1
      · intro l hl hl'
        rcases List.mem_cons.1 hl with rfl | hl
        · exact ⟨k, hk', by rw [e4 _ hn.1, put_self]⟩
        · have := e2 l hl hl'
          rw [put_other _ _ (ne l hl)] at this
          exact this
      · intro l hl hl'
        rcases List.mem_cons.1 hl with rfl | hl
        · rw [hw] at hl'; cases hl'
        · rw [e3 l hl hl', put_other _ _ (ne l hl)]
      · intro i hi
        rw [List.map_cons, List.mem_cons, not_or] at hi
        rw [e4 i hi.2, put_other _ _ hi.1]

end Sinr
end Verif
