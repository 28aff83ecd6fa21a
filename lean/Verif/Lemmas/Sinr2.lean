import Verif.Lemmas.Sinr

/-! # The gain map and the interference sums (for C115 and C116) -/

namespace Verif
namespace Sinr
open Topology Spec

/-- The path needs the polarity of a client node nobody serves. -/
def Stuck (t : Topology) (P : Link) : Prop :=
  P.isWireless = true ∧ (∃ a b, P.sectors = some (a, b) ∧
    (sectorActive t a && sectorActive t b) = true) ∧ Unserved t P

theorem gain_stuck {t : Topology} {R : RadioEnv} {P : Link} (h : Stuck t P) (rest : List Link)
    (m : GainMap) : gainLoop t R (cnPolarities t) (P :: rest) m = .error .keyError := by
  obtain ⟨h1, ⟨a, b, h2, h3⟩, h4⟩ := h
  unfold gainLoop
  rw [h1, h2]
  simp only [Bool.not_true, Bool.false_eq_true, if_false, h3]
  rw [polarity_error h4]

theorem gain_step {t : Topology} (inv : t.Inv) (ends : SectorsOnEnds t) (R : RadioEnv) {P : Link}
    (hP : P ∈ t.links.vals) (hns : ¬ Stuck t P) (m : GainMap)
    (he : ∀ r ∈ t.links.vals, rowOf m P.id r.id = []) (hok : RowsOk m) :
    ∃ m', (∀ rest, gainLoop t R (cnPolarities t) (P :: rest) m = gainLoop t R (cnPolarities t) rest m') ∧
      RowsOk m' ∧ (∀ p' r', p' ≠ P.id → rowOf m' p' r' = rowOf m p' r') ∧
      ∀ r ∈ t.links.vals, (Disturbs t P r → rowOf m' P.id r.id = srcRow t R P r) ∧
        (¬ Disturbs t P r → rowOf m' P.id r.id = []) := by
  -- nothing to do
  have stay : (∀ rest, gainLoop t R (cnPolarities t) (P :: rest) m = gainLoop t R (cnPolarities t) rest m) →
      (∀ r ∈ t.links.vals, Disturbs t P r → srcRow t R P r = []) → ∃ m', (∀ rest, gainLoop t R (cnPolarities t) (P :: rest) m = gainLoop t R (cnPolarities t) rest m') ∧
      RowsOk m' ∧ (∀ p' r', p' ≠ P.id → rowOf m' p' r' = rowOf m p' r') ∧
      ∀ r ∈ t.links.vals, (Disturbs t P r → rowOf m' P.id r.id = srcRow t R P r) ∧
        (¬ Disturbs t P r → rowOf m' P.id r.id = []) := by
    intro h1 h2
    exact ⟨m, h1, hok, fun _ _ _ => rfl, fun r hr => ⟨fun h => by rw [h2 r hr h, he r hr], fun _ => he r hr⟩⟩
  have noPath : (∀ a b, ¬ Path t P a b) → ∀ r ∈ t.links.vals, Disturbs t P r → srcRow t R P r = [] := by
    rintro h r _ ⟨a, b, c, h1, _⟩
    exact absurd h1 (h a b)
  by_cases cw : P.isWireless = true
  swap
  · apply stay
    · intro rest
      conv_lhs => unfold gainLoop
      rw [Bool.not_eq_true] at cw
      rw [cw]; rfl
    · apply noPath; intro a b h; exact cw h.wireless
  cases hs : P.sectors with
  | none =>
    apply stay
    · intro rest
      conv_lhs => unfold gainLoop
      rw [cw, hs]; rfl
    · apply noPath; intro a b h; have := h.sectors; rw [hs] at this; cases this
  | some p =>
  obtain ⟨a, b⟩ := p
  have uniq : ∀ {a' b'}, Path t P a' b' → a' = a ∧ b' = b := by
    intro a' b' h
    have := h.sectors
    rw [hs] at this
    cases this
    exact ⟨rfl, rfl⟩
  by_cases cs : (sectorActive t a && sectorActive t b) = true
  swap
  · apply stay
    · intro rest
      conv_lhs => unfold gainLoop
      rw [Bool.not_eq_true] at cs
      rw [cw, hs]
      simp only [Bool.not_true, Bool.false_eq_true, if_false, cs, Bool.not_false, if_true]
    · apply noPath
      intro a' b' h
      obtain ⟨rfl, rfl⟩ := uniq h
      exact cs ((channel_iff t a' b').2 h.channels).1
  have hun : ¬ Unserved t P := fun h => hns ⟨cw, ⟨a, b, hs, cs⟩, h⟩
  obtain ⟨v, hv, hv'⟩ := polarity_ok inv hP hun
  cases v with
  | false =>
    apply stay
    · intro rest
      conv_lhs => unfold gainLoop
      rw [cw, hs]
      simp only [Bool.not_true, Bool.false_eq_true, if_false, cs, hv]
    · apply noPath
      intro a' b' h
      exact absurd (hv'.2 h.slots) (by simp)
  | true =>
  by_cases cc : compatibleChannel t a b = true
  swap
  · apply stay
    · intro rest
      conv_lhs => unfold gainLoop
      rw [Bool.not_eq_true] at cc
      rw [cw, hs]
      simp only [Bool.not_true, Bool.false_eq_true, if_false, cs, hv, cc, Bool.not_false, if_true]
    · apply noPath
      intro a' b' h
      obtain ⟨rfl, rfl⟩ := uniq h
      exact cc ((channel_iff t a' b').2 h.channels).2
  have path : Path t P a b := ⟨hP, cw, hs, (channel_iff t a b).1 ⟨cs, cc⟩, hv'.1 rfl⟩
  have hdr := dropRedundant_eq (t := t) a t.links.vals (links_at inv)
  have unfold1 : ∀ rest, gainLoop t R (cnPolarities t) (P :: rest) m =
      match dropRedundant t ((t.sectorConnectivity.get? a).getD []) with
      | .error e => .error e
      | .ok [] => gainLoop t R (cnPolarities t) rest m
      | .ok (e :: es) =>
        if (((sectorConnectivityReverse t).get? b).getD []).length ≤ 1 then
          gainLoop t R (cnPolarities t) rest m
        else
          match gainRxLoop t R P a b (e :: es) (((sectorConnectivityReverse t).get? b).getD []) m with
          | .error e => .error e
          | .ok m' => gainLoop t R (cnPolarities t) rest m' := by
    intro rest
    conv_lhs => unfold gainLoop
    rw [cw, hs]
    simp only [Bool.not_true, Bool.false_eq_true, if_false, cs, hv, cc]
    rfl
  rw [sector_row inv ends a, hdr, rev_row inv ends b] at unfold1
  cases htx : (t.links.vals.filter (fun l => !l.isRedundant)).filterMap (rowEntry a) with
  | nil =>
    apply stay
    · intro rest; rw [unfold1, htx]
    · intro r _ hd
      unfold srcRow
      rw [List.map_eq_nil_iff, List.filter_eq_nil_iff]
      intro x hx hsx
      rw [srcB_iff] at hsx
      obtain ⟨_, h2, a', b', c', d, h3, _, h5, _, _⟩ := hsx
      rw [hs] at h3
      cases h3
      have : (d, x.id) ∈ (t.links.vals.filter (fun l => !l.isRedundant)).filterMap (rowEntry a) := by
        rw [List.mem_filterMap]
        refine ⟨x, List.mem_filter.2 ⟨hx, by simp [h2]⟩, ?_⟩
        unfold rowEntry
        rw [h5]
        simp
      rw [htx] at this
      simp at this
  | cons e es =>
  by_cases cl : (t.links.vals.filterMap (revEntry b)).length ≤ 1
  · apply stay
    · intro rest
      rw [unfold1, htx]
      dsimp only
      rw [if_pos cl]
    · rintro r hr ⟨a', b', c, h1, h2, h3, h4⟩
      exfalso
      obtain ⟨rfl, rfl⟩ := uniq h1
      have m1 : (a', P.id) ∈ t.links.vals.filterMap (revEntry b') := by
        rw [List.mem_filterMap]
        refine ⟨P, hP, ?_⟩
        unfold revEntry; rw [hs]; simp
      have m2 : (c, r.id) ∈ t.links.vals.filterMap (revEntry b') := by
        rw [List.mem_filterMap]
        refine ⟨r, hr, ?_⟩
        unfold revEntry; rw [h3]; simp
      cases hl : t.links.vals.filterMap (revEntry b') with
      | nil => rw [hl] at m1; simp at m1
      | cons y ys =>
        rw [hl] at m1 m2 cl
        have : ys = [] := by
          cases ys with
          | nil => rfl
          | cons z zs => simp at cl
        subst this
        rw [List.mem_singleton] at m1 m2
        rw [← m2] at m1
        exact h4 (congrArg Prod.fst m1).symm
  · obtain ⟨m', e1, e2, e3, _, e5⟩ := rxLoop_eq inv R hs t.links.vals m (fun _ h => h) (vals_nodup inv) he hok
    refine ⟨m', ?_, e2, e3, ?_⟩
    · intro rest
      rw [unfold1]
      rw [htx] at e1 ⊢
      dsimp only
      rw [if_neg cl, e1]
    · intro r hr
      refine ⟨fun hd => (e5 r hr).1 ?_, fun hd => (e5 r hr).2 ?_⟩
      · obtain ⟨a', b', c, h1, h2, h3, h4⟩ := hd
        obtain ⟨rfl, rfl⟩ := uniq h1
        exact ⟨h2, c, h3, h4⟩
      · rintro ⟨h2, c, h3, h4⟩
        exact hd ⟨a, b, c, path, h2, h3, h4⟩

theorem gainLoop_spec {t : Topology} (inv : t.Inv) (ends : SectorsOnEnds t) (R : RadioEnv) :
    ∀ (L : List Link) (m : GainMap), (∀ l ∈ L, l ∈ t.links.vals) → L.Nodup →
      (∀ P ∈ L, ∀ r ∈ t.links.vals, rowOf m P.id r.id = []) → RowsOk m →
      ((∃ P ∈ L, Stuck t P) → gainLoop t R (cnPolarities t) L m = .error .keyError) ∧
      ((∀ P ∈ L, ¬ Stuck t P) → ∃ G, gainLoop t R (cnPolarities t) L m = .ok G ∧ RowsOk G ∧
        (∀ P ∈ t.links.vals, P ∉ L → ∀ r, rowOf G P.id r = rowOf m P.id r) ∧
        ∀ P ∈ L, ∀ r ∈ t.links.vals, (Disturbs t P r → rowOf G P.id r.id = srcRow t R P r) ∧
          (¬ Disturbs t P r → rowOf G P.id r.id = [])) := by
  intro L
  induction L with
  | nil =>
    intro m _ _ _ hok
    refine ⟨?_, fun _ => ⟨m, rfl, hok, fun _ _ _ _ => rfl, ?_⟩⟩
    · rintro ⟨P, hP, _⟩; simp at hP
    · intro P hP; simp at hP
  | cons P L ih =>
    intro m hL hn he hok
    rw [List.nodup_cons] at hn
    have hPm := hL P List.mem_cons_self
    have idne : ∀ Q ∈ t.links.vals, Q ≠ P → Q.id ≠ P.id := by
      intro Q hQ hne e
      have := links_at inv Q hQ
      rw [e, links_at inv P hPm] at this
      exact hne (Option.some.inj this).symm
    by_cases st : Stuck t P
    · exact ⟨fun _ => gain_stuck st _ _, fun h => absurd st (h P List.mem_cons_self)⟩
    · obtain ⟨m1, s1, s2, s3, s4⟩ := gain_step inv ends R hPm st m (he P List.mem_cons_self) hok
      obtain ⟨i1, i2⟩ := ih m1 (fun l hl => hL l (List.mem_cons_of_mem _ hl)) hn.2 (by
        intro Q hQ r hr
        rw [s3 _ _ (idne Q (hL Q (List.mem_cons_of_mem _ hQ)) (by rintro rfl; exact hn.1 hQ))]
        exact he Q (List.mem_cons_of_mem _ hQ) r hr) s2
      rw [s1]
      constructor
      · rintro ⟨Q, hQ, hQs⟩
        rcases List.mem_cons.1 hQ with rfl | hQ
        · exact absurd hQs st
        · exact i1 ⟨Q, hQ, hQs⟩
      · intro hall
        obtain ⟨G, g1, g2, g3, g4⟩ := i2 (fun Q hQ => hall Q (List.mem_cons_of_mem _ hQ))
        refine ⟨G, g1, g2, ?_, ?_⟩
        · intro Q hQ hQL r
          rw [g3 Q hQ (fun h => hQL (List.mem_cons_of_mem _ h)) r]
          exact s3 _ _ (idne Q hQ (by rintro rfl; exact hQL List.mem_cons_self))
        · intro Q hQ r hr
          rcases List.mem_cons.1 hQ with rfl | hQ
          · rw [g3 Q hPm hn.1]
            exact s4 r hr
          · exact g4 Q hQ r hr

theorem rowOf_nil (p r : LinkId) : rowOf [] p r = [] := rfl

theorem netGain_spec {t : Topology} (inv : t.Inv) (ends : SectorsOnEnds t) (R : RadioEnv) :
    ((∃ P ∈ t.links.vals, Stuck t P) → netGainMap t R = .error .keyError) ∧
    ((∀ P ∈ t.links.vals, ¬ Stuck t P) → ∃ G, netGainMap t R = .ok G ∧ RowsOk G ∧
      ∀ P ∈ t.links.vals, ∀ r ∈ t.links.vals, (Disturbs t P r → rowOf G P.id r.id = srcRow t R P r) ∧
        (¬ Disturbs t P r → rowOf G P.id r.id = [])) := by
  have := gainLoop_spec inv ends R t.links.vals [] (fun _ h => h) (vals_nodup inv)
    (fun _ _ _ _ => rfl) (by intro p; exact Dict.nodupKeys_nil)
  refine ⟨this.1, fun h => ?_⟩
  obtain ⟨G, g1, g2, _, g4⟩ := this.2 h
  exact ⟨G, g1, g2, g4⟩

/-! ## Sums -/

theorem meanPower_eq (R : RadioEnv) (M : LinkId → Meas) (row : Dict LinkId ℚ) :
    meanPower R M row =
      average (row.map (fun p => R.linDb ((M p.1).power.add (.val p.2)))) := by
  unfold meanPower average
  rw [List.length_map]
  congr 1
  have : ∀ (xs : List (LinkId × ℚ)) (s : ℚ),
      xs.foldl (fun s p => s + R.linDb ((M p.1).power.add (.val p.2))) s =
      s + (xs.map (fun p => R.linDb ((M p.1).power.add (.val p.2)))).sum := by
    intro xs
    induction xs with
    | nil => intro s; simp
    | cons x xs ih =>
      intro s
      rw [List.foldl_cons, ih, List.map_cons, List.sum_cons, add_assoc]
  rw [this, zero_add]

theorem meanPower_nil (R : RadioEnv) (M : LinkId → Meas) : meanPower R M [] = 0 := by
  rw [meanPower_eq]; simp [average]

theorem rslRow_eq (R : RadioEnv) (M : LinkId → Meas) : ∀ (D : Dict LinkId (Dict LinkId ℚ))
    (acc : Dict LinkId ℚ) (r : LinkId), D.NodupKeys →
    ((rslRow R M D acc).get? r).getD 0 =
      (acc.get? r).getD 0 + meanPower R M ((D.get? r).getD []) := by
  intro D
  induction D with
  | nil => intro acc r _; simp [rslRow, meanPower_nil]
  | cons q D ih =>
    obtain ⟨k, row⟩ := q
    intro acc r hn
    have hn' : k ∉ Dict.keys D ∧ Dict.NodupKeys D := by
      unfold Dict.NodupKeys Dict.keys at hn
      rw [List.map_cons, List.nodup_cons] at hn
      exact hn
    rw [Dict.get?_cons]
    unfold rslRow
    by_cases c : k = r
    · subst c
      rw [if_pos rfl, Option.getD_some]
      have hD : Dict.get? D k = none := (Dict.get?_eq_none_iff D k).2 hn'.1
      split
      · rename_i h0
        have : row = [] := List.length_eq_zero_iff.1 h0
        rw [ih _ _ hn'.2, hD, this]
        rfl
      · rw [ih _ _ hn'.2, hD, Dict.get?_set_self]
        simp [meanPower_nil]
    · rw [if_neg c]
      split
      · exact ih _ _ hn'.2
      · rw [ih _ _ hn'.2, Dict.get?_set, if_neg c]

theorem rslMap_eq (t : Topology) (R : RadioEnv) (G : GainMap) (M : LinkId → Meas) (hG : RowsOk G)
    (r : LinkId) :
    ((rslMap t R G M).get? r).getD 0 = (t.links.keys.map (fun p => meanPower R M (rowOf G p r))).sum := by
  unfold rslMap
  have : ∀ (ks : List LinkId) (acc : Dict LinkId ℚ),
      ((ks.foldl (fun acc p => rslRow R M ((G.get? p).getD []) acc) acc).get? r).getD 0 =
        (acc.get? r).getD 0 + (ks.map (fun p => meanPower R M (rowOf G p r))).sum := by
    intro ks
    induction ks with
    | nil => intro acc; simp
    | cons k ks ih =>
      intro acc
      rw [List.foldl_cons, ih, rslRow_eq R M _ _ _ (hG k), List.map_cons, List.sum_cons, add_assoc]
      rfl
  rw [this]
  simp

theorem keys_eq {t : Topology} (inv : t.Inv) : t.links.keys = t.links.vals.map Link.id := by
  unfold Dict.keys Dict.vals
  rw [List.map_map]
  apply List.map_congr_left
  rintro ⟨k, l⟩ h
  have := (Dict.mem_iff_get? inv.nd_links k l).1 h
  exact inv.link_id _ _ this

theorem sum_filter_ite {α : Type} (L : List α) (p : α → Bool) (f : α → ℚ) :
    ((L.filter p).map f).sum = (L.map (fun a => if p a = true then f a else 0)).sum := by
  induction L with
  | nil => rfl
  | cons a L ih =>
    rw [List.filter_cons, List.map_cons, List.sum_cons]
    by_cases c : p a = true
    · rw [if_pos c, if_pos c, List.map_cons, List.sum_cons, ih]
    · rw [if_neg c, if_neg c, ih, zero_add]

theorem interference_eq {t : Topology} (inv : t.Inv) (R : RadioEnv) (G : GainMap) (hG : RowsOk G)
    (rows : ∀ P ∈ t.links.vals, ∀ r ∈ t.links.vals,
      (Disturbs t P r → rowOf G P.id r.id = srcRow t R P r) ∧
        (¬ Disturbs t P r → rowOf G P.id r.id = []))
    (M : LinkId → Meas) (r : Link) (hr : r ∈ t.links.vals) :
    ((rslMap t R G M).get? r.id).getD 0 = interferenceOn t R (fun i => (M i).power) r := by
  classical
  rw [rslMap_eq t R G M hG, keys_eq inv, List.map_map]
  unfold interferenceOn
  rw [sum_filter_ite]
  congr 1
  apply List.map_congr_left
  intro P hP
  rw [Function.comp]
  by_cases c : Disturbs t P r
  · rw [if_pos (by simpa using c), (rows P hP r hr).1 c, meanPower_eq]
    unfold srcRow
    rw [List.map_map]
    congr 1
  · rw [if_neg (by simpa using c), (rows P hP r hr).2 c, meanPower_nil]

/-! ## The loop over the links -/

theorem put_self (M : LinkId → Meas) (i : LinkId) (m : Meas) : put M i m i = m := if_pos rfl
theorem put_other (M : LinkId → Meas) {i j : LinkId} (m : Meas) (h : j ≠ i) : put M i m j = M j :=
  if_neg h

theorem sinr_fold (R : RadioEnv) (I : Dict LinkId ℚ) : ∀ (L : List Link) (M : LinkId → Meas),
    (L.map Link.id).Nodup →
    (∀ i, (∀ l ∈ L, l.id = i → ¬ InUse l) → L.foldl (sinrStep R I) M i = M i) ∧
    ∀ l ∈ L, InUse l → L.foldl (sinrStep R I) M l.id =
      { M l.id with sinr := sinrOf R I (M l.id) l } := by
  intro L
  induction L with
  | nil => intro M _; exact ⟨fun _ _ => rfl, fun l hl => by simp at hl⟩
  | cons x L ih =>
    intro M hn
    rw [List.map_cons, List.nodup_cons] at hn
    obtain ⟨i1, i2⟩ := ih (sinrStep R I M x) hn.2
    have other : ∀ i, (x.id = i → ¬ InUse x) → sinrStep R I M x i = M i := by
      intro i hi
      unfold sinrStep
      split
      · rfl
      · rename_i h
        have hu : InUse x := by
          unfold InUse
          cases h1 : x.isWireless <;> cases h2 : x.status.active <;> simp_all
        rw [put_other]
        rintro rfl
        exact hi rfl hu
    rw [List.foldl_cons]
    constructor
    · intro i h
      rw [i1 i (fun l hl => h l (List.mem_cons_of_mem _ hl)), other i (h x List.mem_cons_self)]
    · intro l hl hu
      rcases List.mem_cons.1 hl with rfl | hl
      · rw [i1]
        · unfold sinrStep
          have : (!l.isWireless || !l.status.active) = false := by simp [hu.1, hu.2]
          rw [this, if_neg Bool.false_ne_true, put_self]
        · intro y hy e
          exact absurd (List.mem_map.2 ⟨y, hy, e⟩) hn.1
      · rw [i2 l hl hu, other]
        intro e
        exact absurd (List.mem_map.2 ⟨l, hl, e.symm⟩) hn.1

/-- The SINR a link in use has with the given powers. -/
noncomputable def sinrSpec (t : Topology) (R : RadioEnv) (M : LinkId → Meas) (l : Link) : Db :=
  if (M l.id).rsl = .off then .off
  else (M l.id).rsl.sub
    (.val (R.log (interferenceOn t R (fun i => (M i).power) l + R.lin (R.noise l.rx))))

/-- The gain map holds what the specification says. -/
structure GoodMap (t : Topology) (R : RadioEnv) (G : GainMap) : Prop where
  ok : RowsOk G
  rows : ∀ P ∈ t.links.vals, ∀ r ∈ t.links.vals,
      (Disturbs t P r → rowOf G P.id r.id = srcRow t R P r) ∧
        (¬ Disturbs t P r → rowOf G P.id r.id = [])

theorem analyzeWith_spec {t : Topology} (inv : t.Inv) {R : RadioEnv} {G : GainMap} (hG : GoodMap t R G)
    (M : LinkId → Meas) :
    (∀ i, (∀ l ∈ t.links.vals, l.id = i → ¬ InUse l) → analyzeWith t R G M i = M i) ∧
    ∀ l ∈ t.links.vals, InUse l →
      analyzeWith t R G M l.id = { M l.id with sinr := sinrSpec t R M l } := by
  have := sinr_fold R (rslMap t R G M) t.links.vals M (ids_nd inv)
  refine ⟨this.1, fun l hl hu => ?_⟩
  unfold analyzeWith
  rw [this.2 l hl hu]
  congr 1
  unfold sinrOf sinrSpec
  rw [interference_eq inv R G hG.ok hG.rows M l hl]

end Sinr
end Verif
