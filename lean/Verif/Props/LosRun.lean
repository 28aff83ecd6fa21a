import Verif.Model.LosRun
import Verif.Props.LosBuild
import Verif.Props.LosPick
import Verif.Props.Pipeline4

/-! # C165: the candidate graph that the LOS phase returns -/

namespace Verif
open Topology

/-- The sites of the topology that a site of the LOS phase can become as it is: itself, or one for each DN device. -/
def LosPoint.asIs (devs : List Device) : LosPoint → List Site
  | .given s _ => [s]
  | .detected dn _ _ => (devs.filter fun v => v.deviceType ≠ .cn).map dn

/-- The client sites of the topology that a detected site can become, one for each CN device. -/
def LosPoint.asCn (devs : List Device) : LosPoint → List Site
  | .given _ _ => []
  | .detected _ cn _ => (devs.filter fun v => v.deviceType = .cn).map cn

/-- All of these. -/
def LosPoint.sites (devs : List Device) (x : LosPoint) : List Site := x.asIs devs ++ x.asCn devs

/-- A given site is not on a building that was detected, a detected one is. -/
def LosPoint.Placed : LosPoint → Prop
  | .given _ p => ∀ k, p.building = some k → k ≤ -1
  | .detected _ _ p => ∃ k, -1 < k ∧ p.building = some k

open LosBuild
namespace LosRun

theorem filterMap_at {α β : Type} {f : α → Option β} : ∀ {L : List α}, (∀ x ∈ L, f x ≠ none) → ∀ m : Nat,
    (L.filterMap f)[m]? = (L[m]?).bind f
  | [], _, m => by simp
  | x :: L, h, m => by
    obtain ⟨y, hy⟩ := Option.ne_none_iff_exists'.1 (h x List.mem_cons_self)
    rw [List.filterMap_cons_some hy]
    cases m with
    | zero => simp [hy]
    | succ m => simpa using filterMap_at (fun z hz => h z (List.mem_cons_of_mem _ hz)) m

/-- The lines of sight found, by position. -/
theorem found_iff {conf : LosSite → LosSite → ℚ} {fresh : List LosPoint} {base : Topology} {place : Site → LosSite}
    (hp : ByPlace conf ((losPoints fresh base place).map LosPoint.place)) (l : ValidLos ℚ) :
    l ∈ losFound conf fresh base place ↔ ∃ x y, (losPoints fresh base place)[l.tx]? = some x
      ∧ (losPoints fresh base place)[l.rx]? = some y ∧ l.tx ≠ l.rx ∧ (l.tx < fresh.length ∨ l.rx < fresh.length)
      ∧ Linkable x.typ y.typ ∧ x.typ ≠ .cn ∧ 0 < conf x.place y.place ∧ l.confidence = conf x.place y.place := by
  unfold losFound
  rw [C23_memo_partial _ _ _ hp 1000 (by decide)]
  generalize losPoints fresh base place = pts at *
  obtain ⟨c1, c2⟩ := C22_candidate_pairs (pts.map LosPoint.typ) fresh.length
  have ty : ∀ (i : Nat) x, pts[i]? = some x → (pts.map LosPoint.typ)[i]? = some x.typ := by
    intro i x h
    rw [List.getElem?_map, h]
    rfl
  have pl : ∀ (i : Nat) x, pts[i]? = some x → (pts.map LosPoint.place)[i]? = some x.place := by
    intro i x h
    rw [List.getElem?_map, h]
    rfl
  have sy : ∀ (i j : Nat) x y, pts[i]? = some x → pts[j]? = some y → conf x.place y.place = conf y.place x.place := by
    intro i j x y hx hy
    exact hp.symm _ (List.mem_iff_getElem?.2 ⟨i, pl i x hx⟩) _ (List.mem_iff_getElem?.2 ⟨j, pl j y hy⟩)
  have lsym : ∀ a b, Linkable a b → Linkable b a := by
    rintro a b ⟨h1, h2⟩
    exact ⟨fun ⟨p, q⟩ => h1 ⟨q, p⟩, fun ⟨p, q⟩ => h2 ⟨q, p⟩⟩
  have pair : ∀ (i j : Nat) a b, i ≠ j → (i < fresh.length ∨ j < fresh.length) → (pts.map LosPoint.typ)[i]? = some a →
      (pts.map LosPoint.typ)[j]? = some b → Linkable a b →
      ∃ c, (∀ c' ∈ losCandidates (pts.map LosPoint.typ) fresh.length, Joins i j c' → c' = c)
        ∧ c ∈ losCandidates (pts.map LosPoint.typ) fresh.length ∧ Joins i j c ∧ (c.both = true ↔ a ≠ .cn ∧ b ≠ .cn)
        ∧ (c.both = false → (pts.map LosPoint.typ)[c.site1]? ≠ some .cn ∧ (pts.map LosPoint.typ)[c.site2]? = some .cn) := by
    intro i j a b ne hf ha hb hl
    have main : ∀ (i j : Nat) a b, i < j → (i < fresh.length ∨ j < fresh.length) → (pts.map LosPoint.typ)[i]? = some a →
      (pts.map LosPoint.typ)[j]? = some b → Linkable a b →
      ∃ c, (∀ c' ∈ losCandidates (pts.map LosPoint.typ) fresh.length, Joins i j c' → c' = c)
        ∧ c ∈ losCandidates (pts.map LosPoint.typ) fresh.length ∧ Joins i j c ∧ (c.both = true ↔ a ≠ .cn ∧ b ≠ .cn)
        ∧ (c.both = false → (pts.map LosPoint.typ)[c.site1]? ≠ some .cn ∧ (pts.map LosPoint.typ)[c.site2]? = some .cn) := by
      intro i j a b lt hf ha hb hl
      obtain ⟨c, e, h1, h2⟩ := c1 i j a b lt (by omega) ha hb hl
      have hc : c ∈ (losCandidates (pts.map LosPoint.typ) fresh.length).filter (fun c => Joins i j c) := by
        rw [e]; exact List.mem_singleton_self _
      rw [List.mem_filter] at hc
      refine ⟨c, ?_, hc.1, of_decide_eq_true hc.2, h1, h2⟩
      intro c' hc' hj
      have : c' ∈ (losCandidates (pts.map LosPoint.typ) fresh.length).filter (fun c => Joins i j c) :=
        List.mem_filter.2 ⟨hc', decide_eq_true hj⟩
      rw [e] at this
      exact List.mem_singleton.1 this
    rcases Nat.lt_or_gt_of_ne ne with lt | gt
    · exact main i j a b lt hf ha hb hl
    · obtain ⟨c, h1, h2, h3, h4, h5⟩ := main j i b a gt hf.symm hb ha (lsym _ _ hl)
      refine ⟨c, ?_, h2, h3.symm, ?_, h5⟩
      · intro c' hc' hj
        exact h1 c' hc' hj.symm
      · rw [h4, and_comm]
  constructor
  · intro h
    obtain ⟨c, hc, hl⟩ := List.mem_flatMap.1 h
    obtain ⟨a, b, ne, hf, ha, hb, hab⟩ := c2 c hc
    obtain ⟨x, hx⟩ : ∃ x, pts[c.site1]? = some x := by
      rw [List.getElem?_map] at ha
      cases hx : pts[c.site1]? with
      | none => rw [hx] at ha; cases ha
      | some x => exact ⟨x, rfl⟩
    obtain ⟨y, hy⟩ : ∃ y, pts[c.site2]? = some y := by
      rw [List.getElem?_map] at hb
      cases hx : pts[c.site2]? with
      | none => rw [hx] at hb; cases hb
      | some x => exact ⟨x, rfl⟩
    rw [ty _ _ hx] at ha
    rw [ty _ _ hy] at hb
    cases ha
    cases hb
    obtain ⟨c', u, _, _, hb, hs⟩ := pair _ _ _ _ ne hf (ty _ _ hx) (ty _ _ hy) hab
    obtain rfl := u c hc (.inl ⟨rfl, rfl⟩)
    unfold freshLinks at hl
    rw [pl _ _ hx, pl _ _ hy] at hl
    dsimp only at hl
    split at hl
    · rename_i hpos
      have hpos := of_decide_eq_true hpos
      split at hl
      · rename_i hboth
        obtain ⟨n1, n2⟩ := hb.1 hboth
        simp only [List.mem_cons, List.not_mem_nil, or_false] at hl
        rcases hl with rfl | rfl
        · exact ⟨x, y, hx, hy, ne, hf, hab, n1, hpos, rfl⟩
        · exact ⟨y, x, hy, hx, ne.symm, hf.symm, lsym _ _ hab, n2, by rw [← sy _ _ _ _ hx hy]; exact hpos,
            sy _ _ _ _ hx hy⟩
      · rename_i hboth
        rw [List.mem_singleton] at hl
        subst hl
        have n1 := (hs (by simpa using hboth)).1
        rw [ty _ _ hx] at n1
        exact ⟨x, y, hx, hy, ne, hf, hab, fun e => n1 (by rw [e]), hpos, rfl⟩
    · cases hl
  · rintro ⟨x, y, hx, hy, ne, hf, hab, n1, hpos, hc⟩
    obtain ⟨c, _, hm, hj, hb, hs⟩ := pair _ _ _ _ ne hf (ty _ _ hx) (ty _ _ hy) hab
    refine List.mem_flatMap.2 ⟨c, hm, ?_⟩
    have hl : l = ⟨l.tx, l.rx, conf x.place y.place⟩ := by
      cases l
      simp only at hc
      rw [hc]
    rw [hl]
    rcases hj with ⟨j1, j2⟩ | ⟨j1, j2⟩
    · unfold freshLinks
      rw [j1, j2, pl _ _ hx, pl _ _ hy]
      dsimp only
      rw [if_pos (decide_eq_true hpos)]
      split <;> simp
    · unfold freshLinks
      rw [j1, j2, pl _ _ hx, pl _ _ hy]
      dsimp only
      rw [sy _ _ _ _ hy hx, if_pos (decide_eq_true hpos)]
      have : c.both = true := by
        by_contra hc
        have := (hs (by simpa using hc)).2
        rw [j2, ty _ _ hx] at this
        exact n1 (by simpa using this)
      rw [if_pos this]
      simp

/-- What the selection of sites gives, with the buildings and their chosen sites `ch`. -/
structure Picks (conf : LosSite → LosSite → ℚ) (detection dep : Bool) (pts : List LosPoint) (n : Nat)
    (ch : List (Int × Nat)) (S : PickState ℚ) : Prop where
  origin : S.origin = ch.map (·.2)
  nodup : (ch.map (·.1)).Nodup
  on : ∀ p ∈ ch, ∃ dn cn q, pts[p.2]? = some (.detected dn cn q) ∧ q.building = some p.1
  all : detection = true → ∀ (j : Nat) dn cn q k, pts[j]? = some (.detected dn cn q) → q.building = some k → k ∈ ch.map (·.1)
  rx : ∀ i j : Nat, j ∈ (S.rx[i]?).getD [] ↔
    ∃ x y j0, pts[i]? = some x ∧ pts[j0]? = some y ∧ i ≠ j0 ∧ (i < n ∨ j0 < n) ∧ Linkable x.typ y.typ ∧ x.typ ≠ .cn
      ∧ 0 < conf x.place y.place
      ∧ (j = j0 ∨ ∃ m p, ch[m]? = some p ∧ p.2 = j0 ∧ j = pts.length + m)
  conf : ∀ i j : Nat, j ∈ (S.rx[i]?).getD [] → ∀ x y j0, pts[i]? = some x → pts[j0]? = some y →
    (j = j0 ∨ ∃ m p, ch[m]? = some p ∧ p.2 = j0 ∧ j = pts.length + m) →
    S.conf.get? (i, j) = some (conf x.place y.place)
  free : ∀ (i : Nat) s q, pts[i]? = some (.given s q) → i ∈ S.picked
  copies : ∀ m, m < ch.length → pts.length + m ∈ S.picked
  chosen : dep = true → ∀ p ∈ ch, p.2 ∈ S.picked

theorem point_lt {pts : List LosPoint} {i : Nat} {x : LosPoint} (h : pts[i]? = some x) : i < pts.length :=
  (List.getElem?_eq_some_iff.1 h).1

theorem picks {conf : LosSite → LosSite → ℚ} {fresh : List LosPoint} {base : Topology} {place : Site → LosSite}
    {order : List Nat → List Nat} (ho : ∀ L, (order L).Perm L) (detection dep : Bool)
    (hp : ByPlace conf ((losPoints fresh base place).map LosPoint.place))
    (hpl : ∀ x ∈ losPoints fresh base place, x.Placed) :
    ∃ S ch, selectSites order detection dep ((losPoints fresh base place).map LosPoint.typ)
        ((losPoints fresh base place).map fun p => p.place.building) (losFound conf fresh base place) = .ok S
      ∧ (detection = true ∨ (∀ x ∈ fresh, ∃ s p, x = .given s p) →
        Picks conf detection dep (losPoints fresh base place) fresh.length ch S) := by
  have F := found_iff hp
  have hb0 : ∀ dn cn q, LosPoint.detected dn cn q ∈ losPoints fresh base place → .detected dn cn q ∈ fresh := by
    intro dn cn q h
    unfold losPoints at h
    rcases List.mem_append.1 h with h | h
    · exact h
    · obtain ⟨s, _, e⟩ := List.mem_map.1 h
      cases e
  generalize hpts : losPoints fresh base place = pts at *
  have bl : ∀ (i : Nat) k, OnBuilding (pts.map fun p => p.place.building) i k ↔
      ∃ dn cn q, pts[i]? = some (.detected dn cn q) ∧ q.building = some k := by
    intro i k
    unfold OnBuilding
    rw [List.getElem?_map]
    constructor
    · rintro ⟨hk, h⟩
      cases hx : pts[i]? with
      | none => rw [hx] at h; cases h
      | some x =>
        rw [hx] at h
        simp only [Option.map_some, Option.some.injEq] at h
        have := hpl x (List.mem_iff_getElem?.2 ⟨i, hx⟩)
        cases x with
        | given s p =>
          have := this k h
          omega
        | detected dn cn q => exact ⟨dn, cn, q, rfl, h⟩
    · rintro ⟨dn, cn, q, h, hq⟩
      obtain ⟨k', hk, e⟩ := hpl _ (List.mem_iff_getElem?.2 ⟨i, h⟩)
      rw [hq] at e
      cases e
      refine ⟨hk, ?_⟩
      rw [h]
      simp [LosPoint.place, hq]
  have hlt : ∀ l ∈ losFound conf fresh base place, l.tx < (pts.map LosPoint.typ).length ∧ l.rx < (pts.map LosPoint.typ).length := by
    intro l hl
    obtain ⟨x, y, hx, hy, _⟩ := (F l).1 hl
    rw [List.length_map]
    exact ⟨point_lt hx, point_lt hy⟩
  have lsym : ∀ a b, Linkable a b → Linkable b a := by
    rintro a b ⟨h1, h2⟩
    exact ⟨fun ⟨p, q⟩ => h1 ⟨q, p⟩, fun ⟨p, q⟩ => h2 ⟨q, p⟩⟩
  have sy : ∀ (i j : Nat) x y, pts[i]? = some x → pts[j]? = some y → conf x.place y.place = conf y.place x.place := by
    intro i j x y hx hy
    exact hp.symm _ (List.mem_map.2 ⟨x, List.mem_iff_getElem?.2 ⟨i, hx⟩, rfl⟩) _
      (List.mem_map.2 ⟨y, List.mem_iff_getElem?.2 ⟨j, hy⟩, rfl⟩)
  cases detection with
  | false =>
    obtain ⟨S, e, _, _, ho, _, hpk, hrx, _, hcf⟩ := C106_no_detection order dep (pts.map LosPoint.typ)
      (pts.map fun p => p.place.building) (losFound conf fresh base place) hlt
    refine ⟨S, [], e, fun hd => ?_⟩
    have hd : ∀ x ∈ fresh, ∃ s p, x = .given s p := by simpa using hd
    constructor
    · simpa using ho
    · simp
    · simp
    · simp
    · intro i j
      rw [hrx]
      constructor
      · rintro ⟨l, hl, rfl, rfl⟩
        obtain ⟨x, y, hx, hy, a, b, c, d, e, _⟩ := (F l).1 hl
        exact ⟨x, y, l.rx, hx, hy, a, b, c, d, e, .inl rfl⟩
      · rintro ⟨x, y, j0, hx, hy, a, b, c, d, e, rfl | ⟨m, p, hm, _⟩⟩
        · exact ⟨⟨i, j, conf x.place y.place⟩, (F _).2 ⟨x, y, hx, hy, a, b, c, d, e, rfl⟩, rfl, rfl⟩
        · simp at hm
    · rintro i j h x y j0 hx hy (rfl | ⟨m, p, hm, _⟩)
      · obtain ⟨c, hc, l, hl, e1, e2, e3⟩ := hcf i j ((hrx i j).1 h)
        obtain ⟨x', y', hx', hy', _, _, _, _, _, e4⟩ := (F l).1 hl
        rw [e1, hx] at hx'
        rw [e2, hy] at hy'
        cases hx'
        cases hy'
        rw [hc, ← e3, e4]
      · simp at hm
    · intro i s q h
      rw [hpk, List.length_map]
      exact point_lt h
    · intro m hm
      simp at hm
    · simp
  | true =>
    have hrev : ∀ l ∈ losFound conf fresh base place, ∀ k, OnBuilding (pts.map fun p => p.place.building) l.rx k →
        ∃ l' ∈ losFound conf fresh base place, l'.tx = l.rx ∧ l'.rx = l.tx := by
      intro l hl k hk
      obtain ⟨x, y, hx, hy, a, b, c, d, e, f⟩ := (F l).1 hl
      obtain ⟨dn, cn, q, h, _⟩ := (bl _ _).1 hk
      rw [hy] at h
      cases h
      exact ⟨⟨l.rx, l.tx, l.confidence⟩, (F _).2 ⟨_, x, hy, hx, a.symm, b.symm, lsym _ _ c, by simp [LosPoint.typ],
        by rw [← sy _ _ _ _ hx hy]; exact e, by rw [← sy _ _ _ _ hx hy]; exact f⟩, rfl, rfl⟩
    obtain ⟨S, ch, P, A, e, ePA, ⟨nd, hall⟩, hon, hty, _, hor, hrx, hcf, _, hP, _, _, _⟩ :=
      C106_site_per_building_partial order ho dep (pts.map LosPoint.typ)
      (pts.map fun p => p.place.building) (losFound conf fresh base place) (by simp) hlt hrev
    rw [List.length_map] at hP hrx hcf
    have chlt : ∀ p ∈ ch, p.2 < pts.length := by
      intro p hp
      obtain ⟨_, _, _, h, _⟩ := (bl _ _).1 (hon p hp)
      exact point_lt h
    refine ⟨S, ch, e, fun _ => ?_⟩
    constructor
    · exact hor
    · exact nd
    · intro p hp
      exact (bl _ _).1 (hon p hp)
    · intro _ j dn cn q k h hq
      exact (hall k).2 ⟨j, (bl _ _).2 ⟨dn, cn, q, h, hq⟩⟩
    · intro i j
      rw [hrx]
      constructor
      · rintro (⟨l, hl, rfl, rfl⟩ | ⟨m, p, hm, rfl, l, hl, rfl, hr⟩)
        · obtain ⟨x, y, hx, hy, a, b, c, d, e, _⟩ := (F l).1 hl
          exact ⟨x, y, l.rx, hx, hy, a, b, c, d, e, .inl rfl⟩
        · obtain ⟨x, y, hx, hy, a, b, c, d, e, _⟩ := (F l).1 hl
          exact ⟨x, y, l.rx, hx, hy, a, b, c, d, e, .inr ⟨m, p, hm, hr.symm, rfl⟩⟩
      · rintro ⟨x, y, j0, hx, hy, a, b, c, d, e, rfl | ⟨m, p, hm, rfl, rfl⟩⟩
        · exact .inl ⟨⟨i, j, conf x.place y.place⟩, (F _).2 ⟨x, y, hx, hy, a, b, c, d, e, rfl⟩, rfl, rfl⟩
        · exact .inr ⟨m, p, hm, rfl, ⟨i, p.2, conf x.place y.place⟩, (F _).2 ⟨x, y, hx, hy, a, b, c, d, e, rfl⟩, rfl, rfl⟩
    · intro i j h x y j0 hx hy hj
      obtain ⟨c, hc, hl⟩ := hcf i j h
      rw [hc]
      rcases hl with ⟨l, hl, e1, e2, e3⟩ | ⟨m, p, hm, ej, l, hl, e1, e2, e3⟩
      · obtain ⟨x', y', hx', hy', _, _, _, _, _, e4⟩ := (F l).1 hl
        rw [e1, hx] at hx'
        rcases hj with rfl | ⟨m, p, _, _, hj⟩
        · rw [e2, hy] at hy'
          cases hx'
          cases hy'
          rw [← e3, e4]
        · have := point_lt hy'
          omega
      · obtain ⟨x', y', hx', hy', _, _, _, _, _, e4⟩ := (F l).1 hl
        rcases hj with rfl | ⟨m', p', hm', rfl, hj⟩
        · have := point_lt hy
          omega
        · have : m' = m := by omega
          subst this
          rw [hm] at hm'
          cases hm'
          rw [e1, hy] at hx'
          rw [e2, hx] at hy'
          cases hx'
          cases hy'
          rw [← e3, e4, sy _ _ _ _ hx hy]
    · intro i s q h
      rw [ePA, List.mem_append]
      left
      rw [hP]
      left
      refine ⟨point_lt h, ?_⟩
      rintro ⟨k, hk⟩
      obtain ⟨_, _, _, h', _⟩ := (bl _ _).1 hk
      rw [h] at h'
      cases h'
    · intro m hm
      rw [ePA, List.mem_append, hP]
      exact .inl (.inr (.inr ⟨by omega, by omega⟩))
    · intro hd p hp
      rw [ePA, List.mem_append, hP]
      exact .inl (.inr (.inl ⟨hd, p, hp, rfl⟩))

theorem flatMap_ids {α β κ : Type} {f : α → List β} {g : β → κ} : ∀ {L : List α}, ((L.flatMap f).map g).Nodup →
    ∀ {i j : Nat} {x y : α} {a b : β}, L[i]? = some x → L[j]? = some y → a ∈ f x → b ∈ f y → g a = g b → i = j
  | [], _, i, j, x, y, a, b, hx, _, _, _, _ => by simp at hx
  | z :: L, h, i, j, x, y, a, b, hx, hy, ha, hb, e => by
    rw [List.flatMap_cons, List.map_append, List.nodup_append] at h
    have out : ∀ {x' : α} {k : Nat} {c : β}, L[k]? = some x' → c ∈ f x' → g c ∈ (L.flatMap f).map g := by
      intro x' k c hk hc
      exact List.mem_map.2 ⟨c, List.mem_flatMap.2 ⟨x', List.mem_iff_getElem?.2 ⟨k, hk⟩, hc⟩, rfl⟩
    cases i with
    | zero =>
      cases j with
      | zero => rfl
      | succ j =>
        simp only [List.getElem?_cons_zero, Option.some.injEq, List.getElem?_cons_succ] at hx hy
        subst hx
        exact (h.2.2 _ (List.mem_map.2 ⟨a, ha, rfl⟩) _ (out hy hb) e).elim
    | succ i =>
      cases j with
      | zero =>
        simp only [List.getElem?_cons_zero, Option.some.injEq, List.getElem?_cons_succ] at hx hy
        subst hy
        exact (h.2.2 _ (List.mem_map.2 ⟨b, hb, rfl⟩) _ (out hx ha) e.symm).elim
      | succ j =>
        simp only [List.getElem?_cons_succ] at hx hy
        rw [flatMap_ids h.2.1 hx hy ha hb e]

theorem map_inj_of_nodup {β κ : Type} {g : β → κ} {L : List β} (h : (L.map g).Nodup) {a b : β} (ha : a ∈ L) (hb : b ∈ L)
    (e : g a = g b) : a = b := List.inj_on_of_nodup_map h ha hb e

/-- The entries of the list of sites after the selection. -/
abbrev itemsOf (pts : List LosPoint) (S : PickState ℚ) : List LosItem :=
  pts.map LosPoint.item ++ S.origin.filterMap fun o => pts[o]?.map LosPoint.copy

variable {conf : LosSite → LosSite → ℚ} {detection dep : Bool} {pts : List LosPoint} {n : Nat} {ch : List (Int × Nat)}
  {S : PickState ℚ}

theorem Picks.lt (K : Picks conf detection dep pts n ch S) {m : Nat} {p : Int × Nat} (h : ch[m]? = some p) :
    p.2 < pts.length := by
  obtain ⟨_, _, _, h, _⟩ := K.on p (List.mem_iff_getElem?.2 ⟨m, h⟩)
  exact point_lt h

theorem Picks.item (K : Picks conf detection dep pts n ch S) (i : Nat) (z : LosItem) :
    (itemsOf pts S)[i]? = some z ↔ (∃ x, pts[i]? = some x ∧ z = x.item)
      ∨ ∃ m p x, ch[m]? = some p ∧ i = pts.length + m ∧ pts[p.2]? = some x ∧ z = x.copy := by
  have hn : ∀ o ∈ S.origin, (pts[o]?.map LosPoint.copy) ≠ none := by
    intro o ho
    rw [K.origin] at ho
    obtain ⟨p, hp, rfl⟩ := List.mem_map.1 ho
    obtain ⟨_, _, _, h, _⟩ := K.on p hp
    rw [h]
    simp
  unfold itemsOf
  rcases Nat.lt_or_ge i pts.length with hi | hi
  · rw [List.getElem?_append_left (by simpa using hi), List.getElem?_map]
    constructor
    · intro h
      left
      cases hx : pts[i]? with
      | none => rw [hx] at h; cases h
      | some x =>
        rw [hx] at h
        exact ⟨x, rfl, by simpa using h.symm⟩
    · rintro (⟨x, hx, rfl⟩ | ⟨m, p, x, _, e, _⟩)
      · rw [hx]
        rfl
      · omega
  · rw [List.getElem?_append_right (by simpa using hi), List.length_map, filterMap_at hn, K.origin, List.getElem?_map]
    constructor
    · intro h
      right
      cases hp : ch[i - pts.length]? with
      | none => rw [hp] at h; cases h
      | some p =>
        rw [hp] at h
        simp only [Option.map_some, Option.bind_some] at h
        cases hx : pts[p.2]? with
        | none => rw [hx] at h; cases h
        | some x =>
          rw [hx] at h
          exact ⟨_, p, x, hp, by omega, hx, by simpa using h.symm⟩
    · rintro (⟨x, hx, rfl⟩ | ⟨m, p, x, hm, rfl, hx, rfl⟩)
      · have := point_lt hx
        omega
      · rw [Nat.add_sub_cancel_left, hm]
        simp [hx]

/-- The point behind a position, and how it is used. -/
def Behind (pts : List LosPoint) (ch : List (Int × Nat)) (devs : List Device) (i j0 : Nat) (x : LosPoint) (s : Site) : Prop :=
  pts[j0]? = some x ∧ ((i = j0 ∧ s ∈ x.asIs devs)
    ∨ ∃ m p, ch[m]? = some p ∧ p.2 = j0 ∧ i = pts.length + m ∧ s ∈ x.asCn devs)

theorem mem_asIs {devs : List Device} {x : LosPoint} {s : Site} :
    s ∈ x.asIs devs ↔ x.item = .given s ∨ ∃ typ f d, x.item = .detected typ f ∧ d ∈ devs
      ∧ (d.deviceType = .cn ↔ typ = .cn) ∧ s = f d := by
  cases x with
  | given a p => simp [LosPoint.asIs, LosPoint.item, eq_comm]
  | detected dn cn p =>
    simp only [LosPoint.asIs, LosPoint.item, List.mem_map, List.mem_filter, decide_eq_true_eq, reduceCtorEq, false_or,
      LosItem.detected.injEq]
    constructor
    · rintro ⟨d, ⟨h1, h2⟩, rfl⟩
      exact ⟨_, _, d, ⟨rfl, rfl⟩, h1, by simpa using h2, rfl⟩
    · rintro ⟨_, _, d, ⟨rfl, rfl⟩, h1, h2, rfl⟩
      exact ⟨d, ⟨h1, by simpa using h2⟩, rfl⟩

theorem mem_asCn {devs : List Device} {dn cn : Device → Site} {p : LosSite} {s : Site} :
    s ∈ (LosPoint.detected dn cn p).asCn devs ↔ (LosPoint.detected dn cn p).copy = .given s ∨ ∃ typ f d,
      (LosPoint.detected dn cn p).copy = .detected typ f ∧ d ∈ devs
      ∧ (d.deviceType = .cn ↔ typ = .cn) ∧ s = f d := by
  simp only [LosPoint.asCn, LosPoint.copy, List.mem_map, List.mem_filter, decide_eq_true_eq, reduceCtorEq, false_or,
    LosItem.detected.injEq]
  constructor
  · rintro ⟨d, ⟨h1, h2⟩, rfl⟩
    exact ⟨_, _, d, ⟨rfl, rfl⟩, h1, by simpa using h2, rfl⟩
  · rintro ⟨_, _, d, ⟨rfl, rfl⟩, h1, h2, rfl⟩
    exact ⟨d, ⟨h1, by simpa using h2⟩, rfl⟩

theorem Picks.offers (K : Picks conf detection dep pts n ch S) (devs : List Device) (i : Nat) (s : Site) :
    Offers devs (itemsOf pts S) S.picked i s ↔ i ∈ S.picked ∧ ∃ j0 x, Behind pts ch devs i j0 x s := by
  unfold Offers Behind
  refine and_congr_right fun _ => ?_
  constructor
  · intro h
    have : ∃ z, (itemsOf pts S)[i]? = some z ∧ (z = .given s ∨ ∃ typ f d, z = .detected typ f ∧ d ∈ devs
      ∧ (d.deviceType = .cn ↔ typ = .cn) ∧ s = f d) := by
      rcases h with h | ⟨typ, f, d, h, h1, h2, h3⟩
      · exact ⟨_, h, .inl rfl⟩
      · exact ⟨_, h, .inr ⟨typ, f, d, rfl, h1, h2, h3⟩⟩
    obtain ⟨z, hz, hs⟩ := this
    rcases (K.item i z).1 hz with ⟨x, hx, rfl⟩ | ⟨m, p, x, hm, rfl, hx, rfl⟩
    · exact ⟨i, x, hx, .inl ⟨rfl, mem_asIs.2 hs⟩⟩
    · obtain ⟨dn, cn, q, h, _⟩ := K.on p (List.mem_iff_getElem?.2 ⟨m, hm⟩)
      rw [hx] at h
      cases h
      exact ⟨p.2, _, hx, .inr ⟨m, p, hm, rfl, rfl, mem_asCn.2 hs⟩⟩
  · rintro ⟨j0, x, hx, ⟨rfl, hs⟩ | ⟨m, p, hm, rfl, rfl, hs⟩⟩
    · have hz := (K.item i x.item).2 (.inl ⟨x, hx, rfl⟩)
      rcases mem_asIs.1 hs with h | ⟨typ, f, d, h, h1, h2, h3⟩
      · exact .inl (by rw [hz, h])
      · exact .inr ⟨typ, f, d, by rw [hz, h], h1, h2, h3⟩
    · have hz := (K.item (pts.length + m) x.copy).2 (.inr ⟨m, p, x, hm, rfl, hx, rfl⟩)
      obtain ⟨dn, cn, q, h, _⟩ := K.on p (List.mem_iff_getElem?.2 ⟨m, hm⟩)
      rw [hx] at h
      cases h
      rcases mem_asCn.1 hs with h | ⟨typ, f, d, h, h1, h2, h3⟩
      · exact .inl (by rw [hz, h])
      · exact .inr ⟨typ, f, d, by rw [hz, h], h1, h2, h3⟩

/-- The points of the base topology are its sites. -/
theorem base_point {fresh : List LosPoint} {base : Topology} (inv : Inv base) {place : Site → LosSite} {j : Nat}
    {x : LosPoint} (h : (losPoints fresh base place)[j]? = some x) (hj : ¬ j < fresh.length) :
    ∃ s, x = .given s (place s) ∧ base.sites.get? s.id = some s := by
  unfold losPoints at h
  rw [List.getElem?_append_right (by omega)] at h
  obtain ⟨s, hs, rfl⟩ := List.mem_map.1 (List.mem_iff_getElem?.2 ⟨_, h⟩)
  obtain ⟨k, hk⟩ := (Topology.mem_vals_iff inv.nd_sites s).1 hs
  exact ⟨s, rfl, by rw [inv.site_id k s hk]; exact hk⟩

theorem fresh_point {fresh : List LosPoint} {base : Topology} {place : Site → LosSite} {j : Nat}
    {x : LosPoint} (hj : j < fresh.length) : (losPoints fresh base place)[j]? = some x ↔ fresh[j]? = some x := by
  unfold losPoints
  rw [List.getElem?_append_left hj]

/-- A site that was not in the base topology comes from a new point. -/
theorem Behind.fresh {fresh : List LosPoint} {base : Topology} (inv : Inv base) {place : Site → LosSite}
    {devs : List Device} {i j0 : Nat} {x : LosPoint} {s : Site}
    (h : Behind (losPoints fresh base place) ch devs i j0 x s) (hb : base.sites.get? s.id = none) : fresh[j0]? = some x := by
  by_cases hj : j0 < fresh.length
  · exact (fresh_point hj).1 h.1
  · obtain ⟨s', rfl, hs'⟩ := base_point inv h.1 hj
    rcases h.2 with ⟨_, hs⟩ | ⟨_, _, _, _, _, hs⟩
    · simp only [LosPoint.asIs, List.mem_singleton] at hs
      subst hs
      rw [hb] at hs'
      cases hs'
    · simp [LosPoint.asCn] at hs

theorem Behind.mem {devs : List Device} {i j0 : Nat} {x : LosPoint} {s : Site} (h : Behind pts ch devs i j0 x s) :
    s ∈ x.sites devs := by
  unfold LosPoint.sites
  rcases h.2 with ⟨_, hs⟩ | ⟨_, _, _, _, _, hs⟩
  · exact List.mem_append_left _ hs
  · exact List.mem_append_right _ hs

/-- Sites with the same id are the same. -/
theorem unique {fresh : List LosPoint} {base : Topology} (inv : Inv base) {place : Site → LosSite} {devs : List Device}
    (K : Picks conf detection dep (losPoints fresh base place) n ch S)
    (hid : ((fresh.flatMap (LosPoint.sites devs)).map Site.id).Nodup) {i i' j0 j0' : Nat} {x x' : LosPoint} {s s' : Site}
    (h : Behind (losPoints fresh base place) ch devs i j0 x s) (h' : Behind (losPoints fresh base place) ch devs i' j0' x' s')
    (hb : base.sites.get? s.id = none) (e : s'.id = s.id) : i' = i ∧ s' = s := by
  have f := h.fresh inv hb
  have f' := h'.fresh inv (by rw [e]; exact hb)
  have ej := flatMap_ids hid f' f h'.mem h.mem e
  subst ej
  rw [f] at f'
  cases f'
  have nd : ((x.sites devs).map Site.id).Nodup := by
    have hx : x ∈ fresh := List.mem_iff_getElem?.2 ⟨_, f⟩
    obtain ⟨A, B, rfl⟩ := List.append_of_mem hx
    simp only [List.flatMap_append, List.flatMap_cons, List.map_append] at hid
    exact (List.nodup_append.1 (List.nodup_append.1 hid).2.1).1
  have es := map_inj_of_nodup nd h'.mem h.mem e
  refine ⟨?_, es⟩
  have dis : s ∈ x.asIs devs → s ∉ x.asCn devs := by
    intro h1 h2
    unfold LosPoint.sites at nd
    rw [List.map_append] at nd
    exact (List.nodup_append.1 nd).2.2 _ (List.mem_map.2 ⟨s, h1, rfl⟩) _ (List.mem_map.2 ⟨s, h2, rfl⟩) rfl
  rw [es] at h'
  rcases h.2 with ⟨rfl, h1⟩ | ⟨m, p, hm, hp, rfl, h1⟩ <;> rcases h'.2 with ⟨rfl, h2⟩ | ⟨m', p', hm', hp', rfl, h2⟩
  · rfl
  · exact (dis h1 h2).elim
  · exact (dis h2 h1).elim
  · obtain ⟨_, _, _, g, gb⟩ := K.on p (List.mem_iff_getElem?.2 ⟨m, hm⟩)
    obtain ⟨_, _, _, g', gb'⟩ := K.on p' (List.mem_iff_getElem?.2 ⟨m', hm'⟩)
    rw [hp'] at g'
    rw [hp, g'] at g
    cases g
    rw [gb] at gb'
    have e1 : p.1 = p'.1 := by simpa using gb'
    have i1 : (ch.map (·.1))[m]? = some p.1 := by rw [List.getElem?_map, hm]; rfl
    have i2 : (ch.map (·.1))[m']? = some p.1 := by rw [List.getElem?_map, hm', e1]; rfl
    have := (List.getElem?_inj (List.getElem?_eq_some_iff.1 i1).1 K.nodup).1 (i1.trans i2.symm)
    omega

/-- The link between two sites. -/
theorem linked {fresh : List LosPoint} {ops : List Op} {place : Site → LosSite} {devs : List Device} {P : LosLimits}
    {t : Topology}
    (K : Picks conf detection dep (losPoints fresh (run {} ops) place) fresh.length ch S)
    (hid : ((fresh.flatMap (LosPoint.sites devs)).map Site.id).Nodup)
    (h : constructLos { P with conf := S.conf } devs (run {} ops) (itemsOf (losPoints fresh (run {} ops) place) S) S.rx S.picked
      = .ok t)
    {i j j0 : Nat} {x y : LosPoint} {a b : Site} (hx : (losPoints fresh (run {} ops) place)[i]? = some x)
    (ha : a ∈ x.asIs devs) (hi : i ∈ S.picked)
    (hy : Behind (losPoints fresh (run {} ops) place) ch devs j j0 y b) (hj : j ∈ S.picked)
    (na : (run {} ops).sites.get? a.id = none) (nb : (run {} ops).sites.get? b.id = none) (ne : i ≠ j0)
    (hl : Linkable x.typ y.typ) (hcn : x.typ ≠ .cn) (hpos : 0 < conf x.place y.place) (hin : InLimits P a b) :
    ∃ l, t.links.get? ⟨a.id, b.id⟩ = some l ∧ l.tx = a.id ∧ l.rx = b.id ∧ l.status = .candidate
      ∧ l.isWireless = true ∧ l.confidence = some (conf x.place y.place) := by
  have inv : Inv (run {} ops) := Inv.empty.run ops
  have bx : Behind (losPoints fresh (run {} ops) place) ch devs i i x a := ⟨hx, .inl ⟨rfl, ha⟩⟩
  obtain ⟨_, _, _, c4, _⟩ := C26_links_partial _ _ _ _ _ _ _ h
  have cj : j = j0 ∨ ∃ m p, ch[m]? = some p ∧ p.2 = j0 ∧ j = (losPoints fresh (run {} ops) place).length + m := by
    rcases hy.2 with ⟨e, _⟩ | ⟨m, p, h1, h2, h3, _⟩
    · exact .inl e
    · exact .inr ⟨m, p, h1, h2, h3⟩
  have hlt : i < fresh.length := (List.getElem?_eq_some_iff.1 (bx.fresh inv na)).1
  have hrx := (K.rx i j).2 ⟨x, y, j0, hx, hy.1, ne, .inl hlt, hl, hcn, hpos, cj⟩
  obtain ⟨l, e1, e2, e3, e4, e5, e6⟩ := c4 i j a b ((K.offers devs i a).2 ⟨hi, i, x, bx⟩) ((K.offers devs j b).2 ⟨hj, j0, y, hy⟩)
    hrx na nb (by
      intro i' s' ho
      obtain ⟨_, j1, z, hz⟩ := (K.offers devs i' s').1 ho
      exact ⟨fun e => unique inv K hid bx hz na e, fun e => unique inv K hid hy hz nb e⟩) hin
  exact ⟨l, e1, e2, e3, e4, e5, by rw [e6]; exact K.conf i j hrx x y j0 hx hy.1 cj⟩

end LosRun

open LosRun

/-- **C165 (partial), sites and links.** Suppose that the LOS phase returns a topology, that the confidence of two sites
depends on their places only and not on their order, and that just the detected sites are on numbered buildings. Then
* the sites and links of the base topology are kept as they are;
* all sites given by the user are in the topology, and all other sites come from a site of the LOS phase;
* every other link joins two sites that come from two new sites of the LOS phase, the first of them no client site,
  that see each other with the confidence written to the link, and that are within the limits for their devices;
* if the ids of the new sites are distinct, then any two given sites that see each other are joined, unless both are
  client sites or POPs, or they are beyond the limits for their devices.
Missing: links to the sites of the base topology (`C26_base_violation`), confidences that depend on more than the
place (`C23_memo_violation`). -/
theorem C165_candidate_graph_partial (conf : LosSite → LosSite → ℚ) (P : LosLimits) (order : List Nat → List Nat)
    (ho : ∀ L, (order L).Perm L) (detection dep : Bool) (D : DetectCfg) (devs : List Device) (fresh : List LosPoint)
    (ops : List Op) (place : Site → LosSite) (t : Topology)
    (hp : ByPlace conf ((losPoints fresh (run {} ops) place).map LosPoint.place))
    (hpl : ∀ x ∈ losPoints fresh (run {} ops) place, x.Placed)
    (hd : detection = true ∨ ∀ x ∈ fresh, ∃ s p, x = .given s p)
    (h : generateCandidates conf P order detection dep D devs fresh (run {} ops) place = .ok t) :
    (∀ k s, (run {} ops).sites.get? k = some s → t.sites.get? k = some s)
    ∧ (∀ k l, (run {} ops).links.get? k = some l → t.links.get? k = some l)
    ∧ (∀ s p, .given s p ∈ fresh → t.sites.get? s.id ≠ none)
    ∧ (∀ k s, t.sites.get? k = some s → (run {} ops).sites.get? k = some s ∨ s.id = k ∧ ∃ x ∈ fresh, s ∈ x.sites devs)
    ∧ (∀ k l, t.links.get? k = some l → (run {} ops).links.get? k = some l ∨
        ∃ x ∈ fresh, ∃ y ∈ fresh, ∃ a ∈ x.asIs devs, ∃ b ∈ y.sites devs, x.typ ≠ .cn ∧ Linkable x.typ y.typ
          ∧ k = ⟨a.id, b.id⟩ ∧ 0 < conf x.place y.place ∧ l.confidence = some (conf x.place y.place) ∧ InLimits P a b)
    ∧ (((fresh.flatMap (LosPoint.sites devs)).map Site.id).Nodup → ∀ a p b q, .given a p ∈ fresh → .given b q ∈ fresh →
        a.id ≠ b.id → (run {} ops).sites.get? a.id = none → (run {} ops).sites.get? b.id = none →
        a.siteType ≠ .cn → Linkable a.siteType b.siteType → 0 < conf p q → InLimits P a b →
        ∃ l, t.links.get? ⟨a.id, b.id⟩ = some l ∧ l.tx = a.id ∧ l.rx = b.id ∧ l.status = .candidate
          ∧ l.isWireless = true ∧ l.confidence = some (conf p q)) := by
  have inv : Inv (run {} ops) := Inv.empty.run ops
  obtain ⟨S, ch, e, K⟩ := picks (dep := dep) (detection := detection) ho hp hpl
  have K := K hd
  unfold generateCandidates at h
  split at h
  · cases h
  unfold buildCandidates at h
  rw [e] at h
  dsimp only at h
  obtain ⟨c1, c2, c3, _, c5, c6⟩ := C26_links_partial _ _ _ _ _ _ _ h
  have hbv := C26_base_violation _ _ _ _ _ _ _ h
  have pos : ∀ x ∈ fresh, ∃ i, i < fresh.length ∧ (losPoints fresh (run {} ops) place)[i]? = some x := by
    intro x hx
    obtain ⟨i, hi⟩ := List.mem_iff_getElem?.1 hx
    have hlt := (List.getElem?_eq_some_iff.1 hi).1
    exact ⟨i, hlt, (fresh_point hlt).2 hi⟩
  refine ⟨c2, ?_, ?_, ?_, ?_, ?_⟩
  · intro k l hk
    obtain ⟨l', hl'⟩ := Option.ne_none_iff_exists'.1 (c6 k (by rw [hk]; simp))
    rw [hl']
    by_contra hc
    have := (hbv k l' hl' (by rw [hk]; intro e; exact hc e.symm)).1
    obtain ⟨s, hs⟩ := inv.link_tx k l hk
    have ek := inv.link_id k l hk
    rw [ek] at this
    dsimp only at this
    rw [hs] at this
    cases this
  · intro s p hs
    obtain ⟨i, _, hi⟩ := pos _ hs
    refine c3 i s ((K.offers devs i s).2 ⟨K.free i s p hi, i, _, hi, .inl ⟨rfl, ?_⟩⟩)
    simp [LosPoint.asIs]
  · intro k s hk
    by_cases hb : (run {} ops).sites.get? k = some s
    · exact .inl hb
    · right
      rcases c1 k s hk with h | ⟨i, ho, e⟩
      · exact (hb h).elim
      · refine ⟨e, ?_⟩
        obtain ⟨_, j0, x, hx⟩ := (K.offers devs i s).1 ho
        by_cases hn : (run {} ops).sites.get? s.id = none
        · exact ⟨x, List.mem_iff_getElem?.2 ⟨_, hx.fresh inv hn⟩, hx.mem⟩
        · obtain ⟨s', hs'⟩ := Option.ne_none_iff_exists'.1 hn
          have := c2 _ _ hs'
          rw [e, hk] at this
          cases this
          rw [e] at hs'
          exact (hb hs').elim
  · intro k l hk
    by_cases hb : (run {} ops).links.get? k = some l
    · exact .inl hb
    · right
      obtain ⟨n1, n2⟩ := hbv k l hk hb
      rcases c5 k l hk with h | ⟨i, j, a, b, oa, ob, hij, hin, rfl, hc⟩
      · exact (hb h).elim
      · obtain ⟨_, i0, x, hx⟩ := (K.offers devs i a).1 oa
        obtain ⟨_, j0, y, hy⟩ := (K.offers devs j b).1 ob
        obtain ⟨x', y', j1, hx', hy', _, _, hl, hcn, hpos, cj⟩ := (K.rx i j).1 hij
        have ex : x' = x ∧ a ∈ x.asIs devs := by
          rcases hx.2 with ⟨rfl, ha⟩ | ⟨_, _, _, _, e, _⟩
          · have := hx.1
            rw [hx'] at this
            cases this
            exact ⟨rfl, ha⟩
          · have := point_lt hx'
            omega
        obtain ⟨rfl, ha⟩ := ex
        have ey : j1 = j0 := by
          rcases hy.2 with ⟨rfl, _⟩ | ⟨m, p, hm, hp, rfl, _⟩ <;> rcases cj with rfl | ⟨m', p', hm', hp', e⟩
          · rfl
          · have := point_lt hy.1
            omega
          · have := point_lt hy'
            omega
          · have : m' = m := by omega
            subst this
            rw [hm] at hm'
            cases hm'
            exact hp'.symm.trans hp
        subst ey
        have hyy := hy.1
        rw [hy'] at hyy
        obtain rfl : y' = y := by simpa using hyy
        exact ⟨x', List.mem_iff_getElem?.2 ⟨_, hx.fresh inv n1⟩, y', List.mem_iff_getElem?.2 ⟨_, hy.fresh inv n2⟩,
          a, ha, b, hy.mem, hcn, hl, rfl, hpos, by rw [hc]; exact K.conf i j hij _ _ _ hx' hy' cj, hin⟩
  · intro hid a p b q ha hb ne na nb hcn hl hpos hin
    obtain ⟨i, _, hi⟩ := pos _ ha
    obtain ⟨j, _, hj⟩ := pos _ hb
    exact linked K hid h hi (by simp [LosPoint.asIs]) (K.free i a p hi) (j := j) (j0 := j) (y := .given b q)
      ⟨hj, .inl ⟨rfl, by simp [LosPoint.asIs]⟩⟩ (K.free j b q hj) na nb
      (by rintro rfl; rw [hi] at hj; cases hj; exact ne rfl) hl hcn hpos hin

/-- **C165 (partial), buildings.** Under the same assumptions, with site detection and distinct ids of the new sites:
for each building on which a site was detected there is one detected site, the same for all devices, such that
* its client sites are in the topology, and no other client site for the building is added;
* every given POP or DN that sees it has a link to its client sites, within the limits for the devices;
* if DNs are deployed, its DN sites are in the topology as well, with links from and to each of these POPs and DNs. -/
theorem C165_buildings_partial (conf : LosSite → LosSite → ℚ) (P : LosLimits) (order : List Nat → List Nat)
    (ho : ∀ L, (order L).Perm L) (dep : Bool) (D : DetectCfg) (devs : List Device) (fresh : List LosPoint)
    (ops : List Op) (place : Site → LosSite) (t : Topology)
    (hp : ByPlace conf ((losPoints fresh (run {} ops) place).map LosPoint.place))
    (hpl : ∀ x ∈ losPoints fresh (run {} ops) place, x.Placed)
    (hid : ((fresh.flatMap (LosPoint.sites devs)).map Site.id).Nodup)
    (hnew : ∀ x ∈ fresh, ∀ s ∈ x.sites devs, (run {} ops).sites.get? s.id = none)
    (h : generateCandidates conf P order true dep D devs fresh (run {} ops) place = .ok t)
    (k : Int) (hk : ∃ dn cn p, .detected dn cn p ∈ fresh ∧ p.building = some k) :
    ∃ dn cn p, .detected dn cn p ∈ fresh ∧ p.building = some k
      ∧ (∀ v ∈ devs, v.deviceType = .cn → t.sites.get? (cn v).id = some (cn v))
      ∧ (∀ dn' cn' p', .detected dn' cn' p' ∈ fresh → p'.building = some k → ∀ v ∈ devs, v.deviceType = .cn →
          t.sites.get? (cn' v).id ≠ none → cn' v = cn v ∧ p' = p)
      ∧ (∀ a q, .given a q ∈ fresh → a.siteType ≠ .cn → 0 < conf q p → ∀ v ∈ devs, v.deviceType = .cn →
          InLimits P a (cn v) → ∃ l, t.links.get? ⟨a.id, (cn v).id⟩ = some l ∧ l.confidence = some (conf q p))
      ∧ (dep = true → (∀ v ∈ devs, v.deviceType ≠ .cn → t.sites.get? (dn v).id = some (dn v))
          ∧ ∀ a q, .given a q ∈ fresh → a.siteType ≠ .cn → 0 < conf q p → ∀ v ∈ devs, v.deviceType ≠ .cn →
            (InLimits P a (dn v) → ∃ l, t.links.get? ⟨a.id, (dn v).id⟩ = some l ∧ l.confidence = some (conf q p))
            ∧ (InLimits P (dn v) a → ∃ l, t.links.get? ⟨(dn v).id, a.id⟩ = some l ∧ l.confidence = some (conf q p))) := by
  have inv : Inv (run {} ops) := Inv.empty.run ops
  obtain ⟨S, ch, e, K⟩ := picks (dep := dep) (detection := true) ho hp hpl
  have K := K (.inl rfl)
  have sy := hp.symm
  unfold generateCandidates at h
  split at h
  · cases h
  unfold buildCandidates at h
  rw [e] at h
  dsimp only at h
  obtain ⟨c1, c2, c3, _, _, _⟩ := C26_links_partial _ _ _ _ _ _ _ h
  have pos : ∀ x ∈ fresh, ∃ i, i < fresh.length ∧ (losPoints fresh (run {} ops) place)[i]? = some x := by
    intro x hx
    obtain ⟨i, hi⟩ := List.mem_iff_getElem?.1 hx
    have hlt := (List.getElem?_eq_some_iff.1 hi).1
    exact ⟨i, hlt, (fresh_point hlt).2 hi⟩
  obtain ⟨dn0, cn0, p0, h0, hk0⟩ := hk
  obtain ⟨i0, _, hi0⟩ := pos _ h0
  obtain ⟨r, hr, er⟩ := List.mem_map.1 (K.all rfl i0 dn0 cn0 p0 k hi0 hk0)
  obtain ⟨m, hm⟩ := List.mem_iff_getElem?.1 hr
  obtain ⟨dn, cn, p, hpt, hb⟩ := K.on r hr
  rw [er] at hb
  have hlt : r.2 < fresh.length := by
    by_contra hc
    obtain ⟨s, e, _⟩ := base_point inv hpt hc
    cases e
  have hf : .detected dn cn p ∈ fresh := List.mem_iff_getElem?.2 ⟨_, (fresh_point hlt).1 hpt⟩
  have mml : m < ch.length := (List.getElem?_eq_some_iff.1 hm).1
  have memCn : ∀ v ∈ devs, v.deviceType = .cn → cn v ∈ (LosPoint.detected dn cn p).asCn devs := by
    intro v hv ht
    exact List.mem_map.2 ⟨v, List.mem_filter.2 ⟨hv, decide_eq_true ht⟩, rfl⟩
  have memDn : ∀ v ∈ devs, v.deviceType ≠ .cn → dn v ∈ (LosPoint.detected dn cn p).asIs devs := by
    intro v hv ht
    exact List.mem_map.2 ⟨v, List.mem_filter.2 ⟨hv, decide_eq_true ht⟩, rfl⟩
  have bCn : ∀ v ∈ devs, v.deviceType = .cn → Behind (losPoints fresh (run {} ops) place) ch devs
      ((losPoints fresh (run {} ops) place).length + m) r.2 (.detected dn cn p) (cn v) :=
    fun v hv ht => ⟨hpt, .inr ⟨m, r, hm, rfl, rfl, memCn v hv ht⟩⟩
  have bDn : ∀ v ∈ devs, v.deviceType ≠ .cn → Behind (losPoints fresh (run {} ops) place) ch devs
      r.2 r.2 (.detected dn cn p) (dn v) :=
    fun v hv ht => ⟨hpt, .inl ⟨rfl, memDn v hv ht⟩⟩
  have new : ∀ {i j0 : Nat} {x : LosPoint} {s : Site}, x ∈ fresh → Behind (losPoints fresh (run {} ops) place) ch devs i j0 x s →
      (run {} ops).sites.get? s.id = none := fun hx hs => hnew _ hx _ hs.mem
  have there : ∀ {i j0 : Nat} {x : LosPoint} {s : Site}, x ∈ fresh → Behind (losPoints fresh (run {} ops) place) ch devs i j0 x s →
      i ∈ S.picked → t.sites.get? s.id = some s := by
    intro i j0 x s hx hs hi
    obtain ⟨s', hs'⟩ := Option.ne_none_iff_exists'.1 (c3 i s ((K.offers devs i s).2 ⟨hi, j0, x, hs⟩))
    rw [hs']
    rcases c1 _ _ hs' with h' | ⟨i', ho', e'⟩
    · rw [new hx hs] at h'
      cases h'
    · obtain ⟨_, j1, z, hz⟩ := (K.offers devs i' s').1 ho'
      rw [(unique inv K hid hs hz (new hx hs) e').2]
  have seen : ∀ {a q}, .given a q ∈ fresh → ∃ i, (losPoints fresh (run {} ops) place)[i]? = some (.given a q) ∧ i ≠ r.2 ∧
      Behind (losPoints fresh (run {} ops) place) ch devs i i (.given a q) a ∧ i ∈ S.picked := by
    intro a q ha
    obtain ⟨i, _, hi⟩ := pos _ ha
    refine ⟨i, hi, ?_, ⟨hi, .inl ⟨rfl, by simp [LosPoint.asIs]⟩⟩, K.free i a q hi⟩
    rintro rfl
    rw [hi] at hpt
    cases hpt
  have lk : ∀ {a : Site}, a.siteType ≠ .cn → Linkable a.siteType .dn ∧ Linkable .dn a.siteType := by
    intro a ha
    unfold Linkable
    simp [ha]
  refine ⟨dn, cn, p, hf, hb, fun v hv ht => there hf (bCn v hv ht) (K.copies m mml), ?_, ?_, ?_⟩
  · intro dn' cn' p' hf' hb' v hv ht hin
    obtain ⟨s, hs⟩ := Option.ne_none_iff_exists'.1 hin
    obtain ⟨i', hlt', hi'⟩ := pos _ hf'
    have memCn' : cn' v ∈ (LosPoint.detected dn' cn' p').asCn devs :=
      List.mem_map.2 ⟨v, List.mem_filter.2 ⟨hv, decide_eq_true ht⟩, rfl⟩
    rcases c1 _ _ hs with h' | ⟨i, ho, e⟩
    · rw [hnew _ hf' (cn' v) (List.mem_append_right _ memCn')] at h'
      cases h'
    · obtain ⟨_, j0, x, hx⟩ := (K.offers devs i s).1 ho
      have nx : (run {} ops).sites.get? s.id = none := by
        rw [e]
        exact hnew _ hf' (cn' v) (List.mem_append_right _ memCn')
      have fx := hx.fresh inv nx
      have ej := flatMap_ids hid fx ((fresh_point hlt').1 hi') hx.mem (List.mem_append_right _ memCn') e
      subst ej
      rw [(fresh_point hlt').1 hi'] at fx
      cases fx
      have nd : (((LosPoint.detected dn' cn' p').sites devs).map Site.id).Nodup := by
        obtain ⟨A, B, hAB⟩ := List.append_of_mem hf'
        rw [hAB] at hid
        simp only [List.flatMap_append, List.flatMap_cons, List.map_append] at hid
        exact (List.nodup_append.1 (List.nodup_append.1 hid).2.1).1
      have es := map_inj_of_nodup nd hx.mem (List.mem_append_right _ memCn') e
      subst es
      rcases hx.2 with ⟨rfl, h1⟩ | ⟨m', r', hm', hr', rfl, h1⟩
      · unfold LosPoint.sites at nd
        rw [List.map_append] at nd
        exact ((List.nodup_append.1 nd).2.2 _ (List.mem_map.2 ⟨_, h1, rfl⟩) _ (List.mem_map.2 ⟨_, memCn', rfl⟩) rfl).elim
      · obtain ⟨_, _, _, g, gb⟩ := K.on r' (List.mem_iff_getElem?.2 ⟨m', hm'⟩)
        rw [hr', hi'] at g
        cases g
        rw [hb'] at gb
        have i1 : (ch.map (·.1))[m]? = some k := by rw [List.getElem?_map, hm, ← er]; rfl
        have i2 : (ch.map (·.1))[m']? = some k := by rw [List.getElem?_map, hm']; exact gb.symm
        have := (List.getElem?_inj (List.getElem?_eq_some_iff.1 i1).1 K.nodup).1 (i1.trans i2.symm)
        subst this
        rw [hm] at hm'
        cases hm'
        rw [hr', hi'] at hpt
        cases hpt
        exact ⟨rfl, rfl⟩
  · intro a q ha hcn hpos v hv ht hin
    obtain ⟨i, hi, ne, bi, pi⟩ := seen ha
    obtain ⟨l, h1, _, _, _, _, h6⟩ := linked K hid h hi (by simp [LosPoint.asIs]) pi (bCn v hv ht) (K.copies m mml)
      (new ha bi) (new hf (bCn v hv ht)) ne (lk hcn).1 hcn hpos hin
    exact ⟨l, h1, h6⟩
  · intro hdep
    have pr := K.chosen hdep r hr
    refine ⟨fun v hv ht => there hf (bDn v hv ht) pr, ?_⟩
    intro a q ha hcn hpos v hv ht
    obtain ⟨i, hi, ne, bi, pi⟩ := seen ha
    constructor
    · intro hin
      obtain ⟨l, h1, _, _, _, _, h6⟩ := linked K hid h hi (by simp [LosPoint.asIs]) pi (bDn v hv ht) pr
        (new ha bi) (new hf (bDn v hv ht)) ne (lk hcn).1 hcn hpos hin
      exact ⟨l, h1, h6⟩
    · intro hin
      have es : conf q p = conf p q := sy _ (List.mem_map.2 ⟨_, List.mem_iff_getElem?.2 ⟨i, hi⟩, rfl⟩) _
        (List.mem_map.2 ⟨_, List.mem_iff_getElem?.2 ⟨_, hpt⟩, rfl⟩)
      obtain ⟨l, h1, _, _, _, _, h6⟩ := linked K hid h hpt (memDn v hv ht) pr bi pi
        (new hf (bDn v hv ht)) (new ha bi) ne.symm (lk hcn).2 (by simp [LosPoint.typ])
        (by show 0 < conf p q; rw [← es]; exact hpos) hin
      exact ⟨l, h1, by rw [h6]; exact congrArg some es.symm⟩

namespace LosRun

theorem addReq_ok {P : LosLimits} {t : Topology} {q : LosReq} (h1 : P.conf.get? (q.i, q.j) ≠ none)
    (h2 : q.tx.siteType ≠ .cn) (h3 : P.maxDist.get? (q.tx.device.sku, q.rx.device.sku) ≠ none)
    (h4 : linkCompat q.tx.status q.rx.status .candidate = true)
    (h5 : t.sites.has q.tx.id = true) (h6 : t.sites.has q.rx.id = true) : ∃ t1, addReq P t q = .ok t1 := by
  obtain ⟨c, hc⟩ := Option.ne_none_iff_exists'.1 h1
  obtain ⟨m, hm⟩ := Option.ne_none_iff_exists'.1 h3
  have hl : mkLink (some q.tx) (some q.rx) none none .candidate true
      = .ok { tx := q.tx.id, rx := q.rx.id, sectors := none, isWireless := true, status := .candidate } := by
    unfold mkLink
    simp [h2, h4]
  unfold addReq
  rw [hc, hl, hm]
  dsimp only
  split_ifs
  · unfold addLink
    dsimp only
    rw [h5, h6]
    exact ⟨_, rfl⟩
  · exact ⟨t, rfl⟩
  · exact ⟨t, rfl⟩

theorem addReqs_ok {P : LosLimits} : ∀ (L : List LosReq) (t : Topology), (∀ q ∈ L, P.conf.get? (q.i, q.j) ≠ none
    ∧ q.tx.siteType ≠ .cn ∧ P.maxDist.get? (q.tx.device.sku, q.rx.device.sku) ≠ none
    ∧ linkCompat q.tx.status q.rx.status .candidate = true
    ∧ t.sites.has q.tx.id = true ∧ t.sites.has q.rx.id = true) → ∃ t1, addReqs P t L = .ok t1
  | [], t, _ => ⟨t, rfl⟩
  | q :: L, t, h => by
    obtain ⟨h1, h2, h3, h4, h5, h6⟩ := h q List.mem_cons_self
    obtain ⟨t1, e⟩ := addReq_ok h1 h2 h3 h4 h5 h6
    have es : t1.sites = t.sites := by
      obtain ⟨c, _, ⟨_, e, _⟩ | ⟨_, e⟩⟩ := addReq_spec e
      · rw [e, addLink_sites]
      · rw [e]
    obtain ⟨t2, e2⟩ := addReqs_ok L t1 (by
      intro q' hq'
      rw [es]
      exact h q' (List.mem_cons_of_mem _ hq'))
    refine ⟨t2, ?_⟩
    unfold addReqs
    rw [e]
    exact e2

theorem linkCompat_candidate {a b : StatusType} (ha : a.inactive = false) (hb : b.inactive = false) :
    linkCompat a b .candidate = true := by
  revert ha hb
  cases a <;> cases b <;> decide

end LosRun

/-- **C166 (partial).** The LOS phase returns a topology if
* the device list has the devices that detected sites need;
* there is a range for each pair of devices of the sites, in the directions in which they can be linked;
* a detected site becomes a DN with the DN devices; and
* none of the new sites is UNAVAILABLE or UNREACHABLE.
Missing: the last assumption (`C166_unavailable_violation`). -/
theorem C166_run_partial (conf : LosSite → LosSite → ℚ) (P : LosLimits) (order : List Nat → List Nat)
    (ho : ∀ L, (order L).Perm L) (detection dep : Bool) (D : DetectCfg) (devs : List Device) (fresh : List LosPoint)
    (ops : List Op) (place : Site → LosSite)
    (hp : ByPlace conf ((losPoints fresh (run {} ops) place).map LosPoint.place))
    (hpl : ∀ x ∈ losPoints fresh (run {} ops) place, x.Placed)
    (hd : detection = true ∨ ∀ x ∈ fresh, ∃ s p, x = .given s p)
    (hdev : detection = true → D.centre = true ∨ D.corners = true ∨ D.highest = true →
      (∃ v ∈ devs, v.deviceType = .cn) ∧ (dep = true → ∃ v ∈ devs, v.deviceType = .dn))
    (hrange : ∀ x ∈ fresh, x.typ ≠ .cn → ∀ y ∈ fresh, ∀ a ∈ x.asIs devs, ∀ b ∈ y.sites devs,
      P.maxDist.get? (a.device.sku, b.device.sku) ≠ none)
    (hdn : ∀ dn cn p, .detected dn cn p ∈ fresh → ∀ v ∈ devs, v.deviceType ≠ .cn → (dn v).siteType ≠ .cn)
    (hst : ∀ x ∈ fresh, ∀ s ∈ x.sites devs, s.status ≠ .unavailable ∧ s.status ≠ .unreachable) :
    ∃ t, generateCandidates conf P order detection dep D devs fresh (run {} ops) place = .ok t := by
  have inv : Inv (run {} ops) := Inv.empty.run ops
  obtain ⟨S, ch, e, K⟩ := picks (dep := dep) (detection := detection) ho hp hpl
  have K := K hd
  have hpre : preLosCheck detection D dep devs = none := by
    unfold preLosCheck
    split_ifs with h1 h2 h3
    · exfalso
      simp only [Bool.and_eq_true, Bool.or_eq_true] at h1
      obtain ⟨v, hv, ht⟩ := (hdev h1.1 (by tauto)).1
      simp only [Bool.not_eq_true', List.any_eq_false] at h2
      exact h2 v hv (by rw [ht]; rfl)
    · exfalso
      simp only [Bool.and_eq_true, Bool.or_eq_true] at h1 h3
      obtain ⟨v, hv, ht⟩ := (hdev h1.1 (by tauto)).2 h3.1
      have h3 := h3.2
      simp only [Bool.not_eq_true', List.any_eq_false] at h3
      exact h3 v hv (by rw [ht]; rfl)
    · rfl
    · rfl
  unfold generateCandidates
  rw [hpre]
  dsimp only
  unfold buildCandidates
  rw [e]
  dsimp only
  unfold constructLos
  apply addReqs_ok
  intro q hq
  obtain ⟨_, _, hrx, htx, hr⟩ := mem_losReqs.1 hq
  obtain ⟨_, a2, _⟩ := addItems_spec devs S.picked (itemsOf (losPoints fresh (run {} ops) place) S) 0 (run {} ops)
  obtain ⟨o1, n1, g1⟩ := a2 _ _ htx
  obtain ⟨o2, n2, g2⟩ := a2 _ _ hr
  rw [offersFrom_zero] at o1 o2
  obtain ⟨_, i0, x, hx⟩ := (K.offers devs _ _).1 o1
  obtain ⟨_, j0, y, hy⟩ := (K.offers devs _ _).1 o2
  obtain ⟨x', y', j1, hx', hy', _, _, _, hcn, _, cj⟩ := (K.rx _ _).1 hrx
  have ex : x' = x ∧ q.tx ∈ x.asIs devs := by
    rcases hx.2 with ⟨rfl, ha⟩ | ⟨_, _, _, _, e, _⟩
    · have := hx.1
      rw [hx'] at this
      cases this
      exact ⟨rfl, ha⟩
    · have := point_lt hx'
      omega
  obtain ⟨rfl, ha⟩ := ex
  have fx : x' ∈ fresh := List.mem_iff_getElem?.2 ⟨_, hx.fresh inv n1⟩
  have fy : y ∈ fresh := List.mem_iff_getElem?.2 ⟨_, hy.fresh inv n2⟩
  have inact : ∀ s : StatusType, s ≠ .unavailable ∧ s ≠ .unreachable → s.inactive = false := by
    intro s
    cases s <;> decide
  refine ⟨?_, ?_, hrange x' fx hcn y fy _ ha _ hy.mem, linkCompat_candidate (inact _ (hst _ fx _ hx.mem))
    (inact _ (hst _ fy _ hy.mem)), ?_, ?_⟩
  · show S.conf.get? (q.i, q.j) ≠ none
    rw [K.conf _ _ hrx x' y' j1 hx' hy' cj]
    simp
  · cases x' with
    | given s p =>
      simp only [LosPoint.asIs, List.mem_singleton] at ha
      rw [ha]
      exact hcn
    | detected dn cn p =>
      obtain ⟨v, hv, ev⟩ := List.mem_map.1 ha
      rw [List.mem_filter] at hv
      rw [← ev]
      exact hdn dn cn p fx v hv.1 (of_decide_eq_true hv.2)
  · unfold Dict.has
    rw [g1]
    rfl
  · unfold Dict.has
    rw [g2]
    rfl

/-- A DN device. -/
def runDn : Device := { sku := "D", deviceType := .dn }

/-- A CN device. -/
def runCn : Device := { sku := "C", deviceType := .cn }

/-- A POP, a DN and two places on the roof of building 0. -/
def runFresh (dnStatus : StatusType) : List LosPoint :=
  [.given { id := "P", siteType := .pop, status := .candidate, lat := 0, lon := 0, device := runDn } ⟨0, 0, none, .streetLevel, none⟩,
    .given { id := "Q", siteType := .dn, status := dnStatus, lat := 0, lon := 1, device := runDn } ⟨10, 0, none, .streetLevel, none⟩,
    .detected (fun d => { id := "X" ++ d.sku, siteType := .dn, status := .candidate, lat := 1, lon := 0, device := d })
      (fun d => { id := "x" ++ d.sku, siteType := .cn, status := .candidate, lat := 1, lon := 0, device := d })
      ⟨0, 10, none, .rooftop, some 0⟩,
    .detected (fun d => { id := "Y" ++ d.sku, siteType := .dn, status := .candidate, lat := 1, lon := 1, device := d })
      (fun d => { id := "y" ++ d.sku, siteType := .cn, status := .candidate, lat := 1, lon := 1, device := d })
      ⟨10, 10, none, .rooftop, some 0⟩]

/-- All sites see each other, except for places on one building. -/
def runConf (a b : LosSite) : ℚ := if a.y = b.y ∧ a.y = 10 then 0 else 9 / 10

/-- All pairs are a hundred metres apart. -/
def runLimits : LosLimits :=
  { conf := [], maxDist := [(("D", "D"), 200), (("D", "C"), 200)], minDist := 5, maxEl := 25
    dist := fun _ _ => 100, el := fun _ _ => 0 }

/-- A site in the base topology. -/
def runBase : List Op :=
  [.addSite { id := "B", siteType := .dn, status := .existing, lat := 0, lon := 2, device := runDn } false]

/-- The candidate graph: the client site at the first of the places on the roof, with links from the POP and the DN. -/
example : ((generateCandidates runConf runLimits id true true ⟨true, true, true⟩ [runDn, runCn] (runFresh .candidate)
      (run {} runBase) fun _ => ⟨20, 0, none, .streetLevel, none⟩).toOption.map fun t => (t.sites.keys, t.links.keys))
    = some (["B", "P", "Q", "XD", "xC"],
      [⟨"P", "Q"⟩, ⟨"P", "XD"⟩, ⟨"P", "xC"⟩, ⟨"Q", "P"⟩, ⟨"Q", "XD"⟩, ⟨"Q", "xC"⟩, ⟨"XD", "P"⟩, ⟨"XD", "Q"⟩]) := by
  decide +kernel

example : (((runFresh .candidate).flatMap (LosPoint.sites [runDn, runCn])).map Site.id).Nodup := by decide +kernel

example : ∀ x ∈ losPoints (runFresh .candidate) (run {} runBase) fun _ => ⟨20, 0, none, .streetLevel, none⟩, x.Placed := by
  intro x hx
  have hx : x ∈ runFresh .candidate ++ [.given { id := "B", siteType := .dn, status := .existing, lat := 0, lon := 2, device := runDn }
    ⟨20, 0, none, .streetLevel, none⟩] := hx
  simp only [runFresh, List.cons_append, List.nil_append, List.mem_cons, List.not_mem_nil, or_false] at hx
  rcases hx with rfl | rfl | rfl | rfl | rfl <;> simp [LosPoint.Placed]

example : ByPlace runConf ((losPoints (runFresh .candidate) (run {} runBase) fun _ => ⟨20, 0, none, .streetLevel, none⟩).map
    LosPoint.place) := by
  constructor
  · intro a _ b _ a' _ b' _ h h'
    simp only [Prod.mk.injEq] at h h'
    unfold runConf
    rw [h.2.1, h'.2.1]
  · intro a _ b _
    unfold runConf
    by_cases h : a.y = b.y
    · rw [h]
    · rw [if_neg (fun c => h c.1), if_neg (fun c => h c.1.symm)]

/-- **C166 fails for unavailable sites.** The same input with the DN marked UNAVAILABLE: the whole LOS phase ends with
a `TopologyException` about the status of a link. -/
theorem C166_unavailable_violation : generateCandidates runConf runLimits id true true ⟨true, true, true⟩ [runDn, runCn]
    (runFresh .unavailable) (run {} runBase) (fun _ => ⟨20, 0, none, .streetLevel, none⟩) = .error .topology := by
  have h : (match generateCandidates runConf runLimits id true true ⟨true, true, true⟩ [runDn, runCn]
    (runFresh .unavailable) (run {} runBase) (fun _ => ⟨20, 0, none, .streetLevel, none⟩) with
    | .error e => decide (e = .topology)
    | .ok _ => false) = true := by decide +kernel
  revert h
  cases generateCandidates runConf runLimits id true true ⟨true, true, true⟩ [runDn, runCn]
    (runFresh .unavailable) (run {} runBase) (fun _ => ⟨20, 0, none, .streetLevel, none⟩) with
  | error e => intro h; rw [of_decide_eq_true h]
  | ok t => intro h; cases h

end Verif
