import Verif.Props.Kml3

/-! # C139: a written KML file can be read again -/

namespace Verif
namespace Kml
open Topology Spec

/-- A site without what is not in the file. -/
def bareSite (s : Site) : Site := { s with polarity := .unassigned, breakdowns := 0 }

/-- The site as it is loaded. -/
def reloaded (K : Info) (s : Site) : NamedSite := { site := bareSite s, loc := K.loc s.id, given := K.name s.id }

theorem sites_reload {t : Topology} {K : Info} {L : Loader} (R : Reloadable t K L) {s : Site} (hs : s ∈ t.sites.vals) :
    L.sites (rawOf K s) = .ok [reloaded K s] := by
  obtain ⟨k1, k2⟩ := R.known s hs
  obtain ⟨g1, g2⟩ := R.ground s hs
  have ht := R.typ s hs
  have hh := R.hash s hs
  have hb := R.subs s hs
  have e1 : (rawOf K s).sku = some s.device.sku := by
    change nonEmpty s.device.sku = _
    unfold nonEmpty
    rw [if_neg k1]
  have e2 : nonEmpty (K.name s.id) = some (K.name s.id) := by
    unfold nonEmpty
    rw [if_neg (R.named s hs)]
  have e3 : L.site (rawOf K s) s.device = .ok (reloaded K s) := by
    unfold Loader.site rawOf
    dsimp only
    rw [if_neg (fun h => g1 h.1), if_neg (fun h => h.2 rfl), if_neg, e2]
    · unfold reloaded bareSite
      rw [← hh]
      obtain ⟨id, ty, st, lat, lon, alt, dev, bld, sub, pol, brk⟩ := s
      dsimp only at *
      subst g2
      have : (if ty = .cn then (if (some sub).getD 0 = 0 then 1 else (some sub).getD 0) else 0) = sub := by
        by_cases c : ty = .cn
        · rw [if_pos c]; exact if_neg (hb.1 c)
        · rw [if_neg c]
          by_contra hne
          exact c (hb.2 fun h => hne h.symm)
      rw [this]
      rfl
    · rw [not_not]
      by_cases c : s.siteType = .cn
      · exact .inl ⟨c, ht.1 c⟩
      · refine .inr ⟨c, ?_⟩
        have : s.device.deviceType ≠ .cn := fun h => c (ht.2 h)
        revert this
        cases s.device.deviceType <;> simp
  unfold Loader.sites
  rw [e1]
  dsimp only
  rw [k2]
  dsimp only
  rw [e3]

theorem reloaded_name {t : Topology} {K : Info} {L : Loader} (R : Reloadable t K L) {s : Site}
    (hs : s ∈ t.sites.vals) : (reloaded K s).name = K.name s.id := by
  unfold NamedSite.name reloaded
  dsimp only
  rw [if_neg (R.named s hs)]

theorem all_perm {α : Type} (f : α → StatusType) (g : StatusType → List α) (l : List α)
    (h : ∀ st, (g st).Perm (l.filter (f · = st))) : (allStatus.flatMap g).Perm l := by
  have e : ∀ l : List α, (allStatus.flatMap fun st => l.filter (f · = st)).Perm l := by
    intro l
    induction l with
    | nil => simp [allStatus]
    | cons x l ih =>
      have hx : (allStatus.flatMap fun st => (x :: l).filter (f · = st)).Perm
          (x :: allStatus.flatMap fun st => l.filter (f · = st)) := by
        simp only [allStatus, List.flatMap_cons, List.flatMap_nil, List.filter_cons]
        have mid : ∀ (a b c : List α), b.Perm (x :: c) → (a ++ b).Perm (x :: (a ++ c)) := fun a b c h =>
          (h.append_left a).trans List.perm_middle
        cases hf : f x <;> simp <;> repeat' first | exact List.Perm.refl _ | exact List.perm_middle | refine mid _ _ _ ?_
      exact hx.trans (ih.cons x)
  refine List.Perm.trans ?_ (e l)
  simp only [allStatus, List.flatMap_cons, List.flatMap_nil]
  exact (h _).append ((h _).append ((h _).append ((h _).append ((h _).append (List.Perm.refl _)))))

theorem keepFirst_id {α κ : Type} [DecidableEq κ] (key : α → κ) (xs : List α) (h : (xs.map key).Nodup) :
    keepFirst key xs = xs := by
  induction xs with
  | nil => rfl
  | cons x r ih =>
    rw [List.map_cons, List.nodup_cons] at h
    unfold keepFirst
    rw [ih h.2, List.filter_eq_self.2]
    intro y hy
    simp only [ne_eq, decide_eq_true_eq]
    exact fun e => h.1 (List.mem_map.2 ⟨y, hy, e⟩)

/-- The sites are loaded as they are. -/
theorem load_reload {t : Topology} (inv : Inv t) {K : Info} {L : Loader} (R : Reloadable t K L) {ss : List Site}
    (hp : ss.Perm t.sites.vals) :
    ∃ S, ({} : InputSites).load L.fold (ss.map (reloaded K)) = .ok S ∧ S.list = ss.map (reloaded K) ∧
      ∀ s ∈ ss, S.getByName (K.name s.id) = some (reloaded K s) := by
  have mem : ∀ s ∈ ss, s ∈ t.sites.vals := fun s hs => hp.mem_iff.1 hs
  have eq : ∀ s ∈ ss, ∀ s' ∈ ss, (reloaded K s).name = (reloaded K s').name → s = s' := by
    intro s hs s' hs' h
    rw [reloaded_name R (mem s hs), reloaded_name R (mem s' hs')] at h
    have hid := R.distinct s (mem s hs) s' (mem s' hs') h
    obtain ⟨⟨i, x⟩, hi, rfl⟩ := List.mem_map.1 (mem s hs)
    obtain ⟨⟨i', x'⟩, hi', rfl⟩ := List.mem_map.1 (mem s' hs')
    have g := (Dict.mem_iff_get? inv.nd_sites _ _).1 hi
    have g' := (Dict.mem_iff_get? inv.nd_sites _ _).1 hi'
    have j := inv.site_id _ _ g
    have j' := inv.site_id _ _ g'
    dsimp only at hid g g' j j' ⊢
    rw [← j] at g
    rw [← j', ← hid, g] at g'
    cases g'
    rfl
  have nd : ss.Nodup := by
    refine (hp.nodup_iff).2 ?_
    exact Dict.nodup_vals_of_inj inv.nd_sites Site.id fun id s hs => (inv.site_id id s hs).symm
  have shared : ∀ x ∈ ss.map (reloaded K), ¬ Shared L.fold (ss.map (reloaded K)) x := by
    intro x hx ⟨y, hy, h1, h2⟩
    obtain ⟨s, hs, rfl⟩ := List.mem_map.1 hx
    obtain ⟨s', hs', rfl⟩ := List.mem_map.1 hy
    have := eq s' hs' s hs h1
    subst this
    exact h2 rfl
  have clash : ¬ Clash L.fold (ss.map (reloaded K)) := by
    rintro ⟨x, hx, y, hy, h1, -, h2⟩
    obtain ⟨s, hs, rfl⟩ := List.mem_map.1 hx
    obtain ⟨s', hs', rfl⟩ := List.mem_map.1 hy
    have := eq s' hs' s hs h1
    subst this
    simp at h2
  have clear : ClearNames L.fold (ss.map (reloaded K)) :=
    ⟨fun x _ y hy h => absurd h (shared y hy), fun x hx y _ h => absurd h (shared x hx)⟩
  obtain ⟨c1, c2⟩ := InputSites.C29_names_partial L.fold (ss.map (reloaded K))
  cases hS : ({} : InputSites).load L.fold (ss.map (reloaded K)) with
  | error e => exact absurd ((c1 e).1 hS).2 clash
  | ok S =>
    obtain ⟨-, -, -, -, -, h⟩ := c2 S hS
    obtain ⟨h1, -, h3⟩ := h clear
    have kf : keepFirst (·.key L.fold) (ss.map (reloaded K)) = ss.map (reloaded K) := by
      refine keepFirst_id _ _ ?_
      rw [List.map_map]
      refine List.Nodup.map_on ?_ nd
      intro s hs s' hs' he
      have : (reloaded K s).name = (reloaded K s').name := by
        have := congrArg SiteKey.name he
        exact this
      exact eq s hs s' hs' this
    rw [kf] at h1
    have hl : S.list = ss.map (reloaded K) := by
      have : ∀ {A B : List NamedSite}, List.Forall₂ (fun x y =>
          (Shared L.fold (ss.map (reloaded K)) x → y = { x with given := x.name ++ "_" ++ L.fold x.site.device.sku }) ∧
          (¬ Shared L.fold (ss.map (reloaded K)) x → y = x)) A B → (∀ x ∈ A, x ∈ ss.map (reloaded K)) → B = A := by
        intro A B hAB
        induction hAB with
        | nil => intro _; rfl
        | @cons a b A B hab _ ih =>
          intro hm
          rw [hab.2 (shared a (hm a (by simp))), ih fun x hx => hm x (by simp [hx])]
      exact this h1 fun _ h => h
    refine ⟨S, rfl, hl, fun s hs => ?_⟩
    have := h3 (reloaded K s) (by rw [hl]; exact List.mem_map.2 ⟨s, hs, rfl⟩)
    rwa [reloaded_name R (mem s hs)] at this

theorem linkType_wireless (t : Topology) (l : Link) : (t.linkType l).isWireless = l.isWireless := by
  unfold linkType
  cases l.isWireless with
  | false => rfl
  | true =>
    split
    · rename_i h; cases h
    · split
      · split <;> rfl
      · rfl

/-- **C139.** The file written for a topology that can be reloaded is read again. The sites are the same, but for
polarity and breakdowns, which are not in the file; the links are the wireless links, in both directions except out of
a CN, with the same status; the demand sites are at the same places. Ethernet links, capacities and confidence levels
are lost. Sites on rooftops are the case for which reading fails: see `C139_rooftop_violation`. -/
theorem C139_reload_partial (ops : List Op) (K : Info) (L : Loader) (ogr : String → String) (d : Doc)
    (h : write (run {} ops) K = .ok d) (R : Reloadable (run {} ops) K L) (ho : ∀ n ∈ dataNames, ogr n = launder n) :
    ∃ S t', load L ogr d = .ok (S, t', (run {} ops).demandSites.vals.map fun x => (x.lat, x.lon)) ∧
      (∀ i s', t'.sites.get? i = some s' ↔ ∃ s, (run {} ops).sites.get? i = some s ∧
        s' = { s with polarity := .unassigned, breakdowns := 0 }) ∧
      (∀ k l', t'.links.get? k = some l' ↔ ∃ l a, (run {} ops).links.get? ⟨l.tx, l.rx⟩ = some l ∧
        l.isWireless = true ∧ (k = ⟨l.tx, l.rx⟩ ∨ k = ⟨l.rx, l.tx⟩) ∧
        (run {} ops).sites.get? k.tx = some a ∧ a.siteType ≠ .cn ∧
        l' = { tx := k.tx, rx := k.rx, isWireless := true, status := l.status }) ∧
      ∀ i s, (run {} ops).sites.get? i = some s → ∃ y, S.getByName (K.name i) = some y ∧ y.site.id = i := by
  have inv := Inv.empty.run ops
  generalize run {} ops = t at *
  obtain ⟨xs, ks, px, hks, ls, hls, hfold⟩ := adds_all ho inv R.sitePlain R.demandPlain h
  obtain ⟨st, hf⟩ := hfold {}
  have ht : d.title = if K.title = "" then "topology" else K.title := by
    obtain ⟨_, _, _, _, _, _, _, _, _, _, _, _, rfl⟩ := write_parts h
    rfl
  have hread : readDoc ogr d = .ok { status := st, sites := (allStatus.flatMap (sitesOf t K)).map (rawOf K), links := ks
                                     demand := t.demandSites.vals.map fun d => (d.lat, d.lon) } := by
    have hl : d.layers = some ls.flatten := by
      have : readText d.title = some d.title := by
        refine readText_plain _ ?_
        rw [ht]
        split
        · exact plain_lit (by decide)
        · exact R.title
      unfold Doc.layers
      rw [this, hls]
    unfold readDoc
    rw [hl]
    dsimp only
    rw [hf]
    simp
  set ss := allStatus.flatMap (sitesOf t K) with hss
  have ps : ss.Perm t.sites.vals := all_perm (·.status) _ _ fun st => sitesOf_perm t K st
  have pl : xs.Perm t.links.vals := px.trans (all_perm (·.status) _ _ fun st => linksOf_perm t st)
  have msite : ∀ i s, t.sites.get? i = some s → s ∈ ss := fun i s hs =>
    ps.mem_iff.2 (List.mem_map.2 ⟨_, (Dict.mem_iff_get? inv.nd_sites _ _).2 hs, rfl⟩)
  have hsites : (ss.map (rawOf K)).mapM L.sites = .ok (ss.map fun s => [reloaded K s]) := by
    have mem : ∀ s ∈ ss, s ∈ t.sites.vals := fun s hs => ps.mem_iff.1 hs
    generalize ss = zs at mem
    induction zs with
    | nil => rfl
    | cons z zs ih =>
      rw [List.map_cons, List.mapM_cons, sites_reload R (mem z (by simp)), ih fun x hx => mem x (by simp [hx])]
      rfl
  have hflat : (ss.map fun s => [reloaded K s]).flatten = ss.map (reloaded K) := by
    generalize ss = zs
    induction zs with
    | nil => rfl
    | cons z zs ih => simp [ih]
  obtain ⟨S, hS, hlist, hname⟩ := load_reload inv R ps
  have nd : (S.list.map (·.site.id)).Nodup := by
    rw [hlist, List.map_map]
    have : ((fun x : NamedSite => x.site.id) ∘ reloaded K) = Site.id := rfl
    rw [this]
    refine ((ps.map _).nodup_iff).2 ?_
    have e : t.sites.vals.map Site.id = t.sites.map Prod.fst := by
      unfold Dict.vals
      rw [List.map_map]
      refine List.map_congr_left fun p hp => ?_
      exact inv.site_id _ _ ((Dict.mem_iff_get? inv.nd_sites _ _).1 hp)
    rw [e]
    exact inv.nd_sites
  set M : Loader := { L with near := fun _ _ => .ok [] } with hM
  have c := C104_kml_links L.fold (ss.map (reloaded K)) S (ks.map (M.raw S)) hS nd (by
    intro q hq A B hAB s hs
    obtain ⟨k, -, rfl⟩ := List.mem_map.1 hq
    have : (M.raw S k).near = .ok ([], []) := rfl
    rw [this] at hAB
    cases hAB
    cases hs)
  -- the link that a raw link stands for
  have seen : ∀ k ∈ ks, ∃ l, t.links.get? ⟨l.tx, l.rx⟩ = some l ∧ SeenLink t K l k := by
    intro k hk
    obtain ⟨l, hl, hlk⟩ := forall₂_mem_right hks hk
    exact ⟨l, (mem_vals_iff inv).1 (pl.mem_iff.1 hl), hlk⟩
  have seen' : ∀ l, t.links.get? ⟨l.tx, l.rx⟩ = some l → ∃ k ∈ ks, SeenLink t K l k := by
    intro l hl
    obtain ⟨k, hk, hlk⟩ := forall₂_mem_left hks (pl.mem_iff.2 ((mem_vals_iff inv).2 hl))
    exact ⟨k, hk, hlk⟩
  have pairs : ∀ l k, SeenLink t K l k → ∀ a b, t.sites.get? l.tx = some a → t.sites.get? l.rx = some b →
      (M.raw S k).pairs S = .ok [(bareSite a, bareSite b)] := by
    intro l k hlk a b ha hb
    have e1 : (M.raw S k).pairs S = (match S.getByName k.tx, S.getByName k.rx with
      | some a, some b => .ok [(a.site, b.site)]
      | _, _ => .error .data) := rfl
    have n1 := hname a (msite _ _ ha)
    have n2 := hname b (msite _ _ hb)
    rw [inv.site_id _ _ ha] at n1
    rw [inv.site_id _ _ hb] at n2
    rw [e1, hlk.tx, hlk.rx, n1, n2]
    rfl
  have wl : ∀ l k, SeenLink t K l k → (M.raw S k).attr.isWireless = l.isWireless := by
    intro l k hlk
    change k.typ.isWireless = _
    rw [hlk.typ, linkType_wireless]
  have wants : ∀ l k, t.links.get? ⟨l.tx, l.rx⟩ = some l → SeenLink t K l k → ∀ key, Wants S (M.raw S k) key ↔
      l.isWireless = true ∧ (key = ⟨l.tx, l.rx⟩ ∨ key = ⟨l.rx, l.tx⟩) ∧
        ∃ a, t.sites.get? key.tx = some a ∧ a.siteType ≠ .cn := by
    intro l k hl hlk key
    obtain ⟨a, ha⟩ := inv.link_tx _ _ hl
    obtain ⟨b, hb⟩ := inv.link_rx _ _ hl
    have hp := pairs l k hlk a b ha hb
    have ia := inv.site_id _ _ ha
    have ib := inv.site_id _ _ hb
    unfold Wants
    rw [wl l k hlk, hp]
    refine and_congr_right fun _ => ?_
    constructor
    · rintro ⟨ps, hps, x, y, hxy, h1, h2, h3⟩
      cases hps
      rcases hxy with hxy | hxy
      · rw [List.mem_singleton, Prod.mk.injEq] at hxy
        obtain ⟨rfl, rfl⟩ := hxy
        have h1 : a.id = key.tx := h1
        have h2 : b.id = key.rx := h2
        refine ⟨.inl ?_, a, by rw [← h1, ia]; exact ha, h3⟩
        obtain ⟨u, v⟩ := key
        dsimp only at h1 h2
        rw [← h1, ← h2, ia, ib]
      · rw [List.mem_singleton, Prod.mk.injEq] at hxy
        obtain ⟨rfl, rfl⟩ := hxy
        have h1 : b.id = key.tx := h1
        have h2 : a.id = key.rx := h2
        refine ⟨.inr ?_, b, by rw [← h1, ib]; exact hb, h3⟩
        obtain ⟨u, v⟩ := key
        dsimp only at h1 h2
        rw [← h1, ← h2, ia, ib]
    · rintro ⟨rfl | rfl, z, hz, hc⟩
      · dsimp only at hz
        rw [ha] at hz
        cases hz
        exact ⟨_, rfl, bareSite a, bareSite b, .inl (by simp), ia, ib, hc⟩
      · dsimp only at hz
        rw [hb] at hz
        cases hz
        exact ⟨_, rfl, bareSite b, bareSite a, .inr (by simp), ib, ia, hc⟩
  have same : ∀ l k l' k', t.links.get? ⟨l.tx, l.rx⟩ = some l → SeenLink t K l k → t.links.get? ⟨l'.tx, l'.rx⟩ = some l' →
      SeenLink t K l' k' → ∀ key, Wants S (M.raw S k) key → Wants S (M.raw S k') key → l.status = l'.status := by
    intro l k l' k' hl hlk hl' hlk' key w w'
    obtain ⟨w1, w2, -⟩ := (wants l k hl hlk key).1 w
    obtain ⟨v1, v2, -⟩ := (wants l' k' hl' hlk' key).1 w'
    have eqs : l = l' ∨ l'.tx = l.rx ∧ l'.rx = l.tx := by
      rcases w2 with rfl | rfl <;> rcases v2 with e | e
      · rw [← e, hl] at hl'; cases hl'; exact .inl rfl
      · rw [LinkId.mk.injEq] at e; exact .inr ⟨e.2.symm, e.1.symm⟩
      · rw [LinkId.mk.injEq] at e; exact .inr ⟨e.1.symm, e.2.symm⟩
      · rw [LinkId.mk.injEq] at e; rw [← e.1, ← e.2, hl] at hl'; cases hl'; exact .inl rfl
    rcases eqs with rfl | ⟨e1, e2⟩
    · rfl
    · exact (R.back l ((mem_vals_iff inv).2 hl) l' ((mem_vals_iff inv).2 hl') w1 v1 e1 e2).symm
  have ok : ∃ t', fromKml S (ks.map (M.raw S)) = .ok t' := by
    refine c.1.2 ⟨?_, ?_, ?_⟩
    · intro q hq _
      obtain ⟨k, hk, rfl⟩ := List.mem_map.1 hq
      obtain ⟨l, hl, hlk⟩ := seen k hk
      obtain ⟨a, ha⟩ := inv.link_tx _ _ hl
      obtain ⟨b, hb⟩ := inv.link_rx _ _ hl
      exact ⟨_, pairs l k hlk a b ha hb⟩
    · intro key q hq q' hq' w w'
      obtain ⟨k, hk, rfl⟩ := List.mem_map.1 hq
      obtain ⟨k', hk', rfl⟩ := List.mem_map.1 hq'
      obtain ⟨l, hl, hlk⟩ := seen k hk
      obtain ⟨l', hl', hlk'⟩ := seen k' hk'
      change k.status = k'.status
      rw [hlk.status, hlk'.status]
      exact same l k l' k' hl hlk hl' hlk' key w w'
    · intro key q hq w x hx y hy h1 h2
      obtain ⟨k, hk, rfl⟩ := List.mem_map.1 hq
      obtain ⟨l, hl, hlk⟩ := seen k hk
      obtain ⟨w1, w2, -⟩ := (wants l k hl hlk key).1 w
      rw [hlist] at hx hy
      obtain ⟨x, mx, rfl⟩ := List.mem_map.1 hx
      obtain ⟨y, my, rfl⟩ := List.mem_map.1 hy
      have get : ∀ s ∈ ss, t.sites.get? s.id = some s := by
        intro s hs
        obtain ⟨⟨i, s⟩, hi, rfl⟩ := List.mem_map.1 (ps.mem_iff.1 hs)
        have hg := (Dict.mem_iff_get? inv.nd_sites _ _).1 hi
        have := inv.site_id _ _ hg
        dsimp only
        rw [this]; exact hg
      have gx := get x mx
      have gy := get y my
      have h1 : x.id = key.tx := h1
      have h2 : y.id = key.rx := h2
      rw [h1] at gx
      rw [h2] at gy
      change linkCompat x.status y.status k.status = true
      rw [hlk.status]
      rcases w2 with rfl | rfl
      · exact (R.compat l ((mem_vals_iff inv).2 hl) w1 x y gx gy).1
      · exact (R.compat l ((mem_vals_iff inv).2 hl) w1 y x gy gx).2
  obtain ⟨t', ht'⟩ := ok
  obtain ⟨c1, c2⟩ := c.2 t' ht'
  refine ⟨S, t', ?_, ?_, ?_, ?_⟩
  · unfold load
    rw [hread]
    dsimp only
    rw [hsites]
    dsimp only
    rw [hflat, hS]
    dsimp only
    rw [fromKml_near S ks L M, ht']
  · intro i s'
    rw [c1, hlist]
    constructor
    · rintro ⟨hi, y, hy, rfl⟩
      obtain ⟨s, hs, rfl⟩ := List.mem_map.1 hy
      refine ⟨s, ?_, rfl⟩
      obtain ⟨⟨j, s⟩, hj, rfl⟩ := List.mem_map.1 (ps.mem_iff.1 hs)
      have hg := (Dict.mem_iff_get? inv.nd_sites _ _).1 hj
      have := inv.site_id _ _ hg
      have hi : s.id = i := hi
      rw [← hi, this]
      exact hg
    · rintro ⟨s, hs, rfl⟩
      exact ⟨(inv.site_id _ s hs :), _, List.mem_map.2 ⟨s, msite _ _ hs, rfl⟩, rfl⟩
  · intro key l'
    rw [c2]
    constructor
    · rintro ⟨pre, q, post, e, w, -, rfl⟩
      have hq : q ∈ ks.map (M.raw S) := by rw [e]; simp
      obtain ⟨k, hk, rfl⟩ := List.mem_map.1 hq
      obtain ⟨l, hl, hlk⟩ := seen k hk
      obtain ⟨w1, w2, a, ha, hc⟩ := (wants l k hl hlk key).1 w
      refine ⟨l, a, hl, w1, w2, ha, hc, ?_⟩
      have e1 : (M.raw S k).attr.status = l.status := hlk.status
      have e2 : (M.raw S k).attr.confidence = none := by
        change (k.conf.map fun n => (n : ℚ)) = none
        rw [hlk.conf]
        rfl
      rw [e1, e2]
    · rintro ⟨l, a, hl, w1, w2, ha, hc, rfl⟩
      obtain ⟨k, hk, hlk⟩ := seen' l hl
      have w := (wants l k hl hlk key).2 ⟨w1, w2, a, ha, hc⟩
      rcases firstReq_raws S (ks.map (M.raw S)) key with ⟨-, hn⟩ | ⟨_, pre, q, post, -, h1, h2, h3, -⟩
      · exact absurd w (hn _ (List.mem_map.2 ⟨k, hk, rfl⟩))
      · refine ⟨pre, q, post, h1, h2, h3, ?_⟩
        have hq : q ∈ ks.map (M.raw S) := by rw [h1]; simp
        obtain ⟨k', hk', rfl⟩ := List.mem_map.1 hq
        obtain ⟨l', hl', hlk'⟩ := seen k' hk'
        have e1 : (M.raw S k').attr.status = l.status := by
          change k'.status = _
          rw [hlk'.status]
          exact same l' k' l k hl' hlk' hl hlk key h2 w
        have e2 : (M.raw S k').attr.confidence = none := by
          change (k'.conf.map fun n => (n : ℚ)) = none
          rw [hlk'.conf]
          rfl
        rw [e1, e2]
  · intro i s hs
    have := hname s (msite _ _ hs)
    rw [inv.site_id _ _ hs] at this
    exact ⟨_, this, (inv.site_id _ s hs :)⟩

end Kml
end Verif
