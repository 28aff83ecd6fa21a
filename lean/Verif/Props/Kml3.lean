import Verif.Lemmas.Kml2
import Verif.Props.InputLinks2

/-! # C138: styles and text of the KML file; C140: links by name -/

namespace Verif
namespace Kml
open Topology Spec

/-! ## All placemarks -/

theorem top_marks {t : Topology} {K : Info} {st : StatusType} {fs : List Top} (h : statusTop t K st = .ok fs) {f : Top}
    (hf : f ∈ fs) {s : Sub} (hs : s ∈ f.subs) {m : Mark} (hm : m ∈ s.marks) :
    (∃ x ∈ t.sites.vals, m = siteMark K x) ∨ ∃ l ∈ t.links.vals, linkMark t K l = .ok m := by
  rcases statusTop_ok h with ⟨rfl, -⟩ | ⟨f', ls, rfl, -, -, -, hsub, hl⟩
  · cases hf
  rw [List.mem_singleton] at hf
  subst hf
  rw [hsub, List.mem_append] at hs
  rcases hs with hs | hs
  · obtain ⟨g, hg, rfl⟩ := List.mem_map.1 hs
    obtain ⟨x, hx, rfl⟩ := List.mem_map.1 hm
    have := (sitesOf_perm t K st).mem_iff.1 (groupOn_mem _ _ hg hx)
    exact .inl ⟨x, (List.mem_filter.1 this).1, rfl⟩
  · obtain ⟨g, hg, hgs⟩ := forall₂_mem_right hl hs
    obtain ⟨l, hl', hlm⟩ := forall₂_mem_right (linkSub_ok hgs).2 hm
    have := (linksOf_perm t st).mem_iff.1 (groupOn_mem _ _ hg ((orderLinks_perm t K _).mem_iff.1 hl'))
    exact .inr ⟨l, (List.mem_filter.1 this).1, hlm⟩

theorem mem_marks {t : Topology} {K : Info} {d : Doc} (h : write t K = .ok d) {m : Mark} (hm : m ∈ d.marks) :
    (∃ x ∈ t.sites.vals, m = siteMark K x) ∨ (∃ l ∈ t.links.vals, linkMark t K l = .ok m) ∨
    (∃ x ∈ t.demandSites.vals, demandMark (demandValues t) x = .ok m) ∨
    ∃ x ∈ t.demandSites.vals, m ∈ connMarks t x := by
  obtain ⟨a, b, c, e, f, dem, h1, h2, h3, h4, h5, hd, rfl⟩ := write_parts h
  obtain ⟨g, hg, hm⟩ := List.mem_flatMap.1 hm
  obtain ⟨s, hs, hm⟩ := List.mem_flatMap.1 hm
  simp only [List.mem_append, List.mem_singleton, List.not_mem_nil, or_false] at hg
  rcases hg with (hg | hg | hg | hg | hg) | rfl
  · exact (top_marks h1 hg hs hm).imp id .inl
  · exact (top_marks h2 hg hs hm).imp id .inl
  · exact (top_marks h3 hg hs hm).imp id .inl
  · exact (top_marks h4 hg hs hm).imp id .inl
  · exact (top_marks h5 hg hs hm).imp id .inl
  · obtain ⟨ms, hf, rfl⟩ := demandTop_parts hd
    simp only [List.mem_cons, List.not_mem_nil, or_false] at hs
    rcases hs with rfl | rfl
    · obtain ⟨x, hx, hxm⟩ := forall₂_mem_right hf hm
      exact .inr (.inr (.inl ⟨x, hx, hxm⟩))
    · obtain ⟨x, hx, hxm⟩ := List.mem_flatMap.1 hm
      exact .inr (.inr (.inr ⟨x, hx, hxm⟩))

/-! ## Styles -/

theorem linkMark_style {t : Topology} (inv : Inv t) {K : Info} {l : Link} {m : Mark} (h : linkMark t K l = .ok m) :
    m.style = "backhaul_link_" ++ l.status.str ∨
    (K.util ⟨l.tx, l.rx⟩ > 80 ∨ K.util ⟨l.rx, l.tx⟩ > 80 ∧ t.links.get? ⟨l.rx, l.tx⟩ ≠ none) ∧ l.isWireless = true ∧
      m.style = "backhaul_link_" ++ l.status.str ++ "_high_util" := by
  unfold linkMark at h
  cases ha : t.sites.get? l.tx with
  | none => rw [ha] at h; cases h
  | some a =>
    cases hb : t.sites.get? l.rx with
    | none => rw [ha, hb] at h; cases h
    | some b =>
      rw [ha, hb] at h
      dsimp only at h
      split at h
      · cases h
      cases hc : t.linkChannelE l with
      | error e => rw [hc] at h; cases h
      | ok c =>
        rw [hc] at h
        dsimp only at h
        cases hr : t.getLinkBySiteIds l.rx l.tx with
        | error e => rw [hr] at h; cases h
        | ok r =>
          rw [hr] at h
          rw [Except.ok.injEq] at h
          have hr' : t.links.get? ⟨l.rx, l.tx⟩ = r := by
            unfold getLinkBySiteIds at hr
            split at hr
            · cases hr; rfl
            · cases hr
          rw [← h]
          dsimp only
          unfold busy
          cases r with
          | none =>
            dsimp only
            by_cases hb : (decide (max (K.util l.id) 0 > 80) && l.isWireless) = true
            · rw [if_pos hb]
              rw [Bool.and_eq_true, decide_eq_true_eq] at hb
              refine .inr ⟨?_, hb.2, rfl⟩
              rcases lt_max_iff.1 hb.1 with h1 | h1
              · exact .inl h1
              · exact absurd h1 (by norm_num)
            · rw [if_neg hb, String.append_empty]
              exact .inl rfl
          | some r =>
            dsimp only
            have hid : K.util r.id = K.util ⟨l.rx, l.tx⟩ := by rw [inv.link_id _ _ hr']; rfl
            by_cases hb : (decide (max (K.util l.id) (K.util r.id) > 80) && l.isWireless) = true
            · rw [if_pos hb]
              rw [Bool.and_eq_true, decide_eq_true_eq] at hb
              refine .inr ⟨?_, hb.2, rfl⟩
              rcases lt_max_iff.1 hb.1 with h1 | h1
              · exact .inl h1
              · exact .inr ⟨by rw [← hid]; exact h1, by rw [hr']; simp⟩
            · rw [if_neg hb, String.append_empty]
              exact .inl rfl

/-- **C138.** Every placemark uses a style that the file defines, if no POP is unreachable, no link is busy unless it
is in use, and no demand is negative. The first two conditions cannot be dropped: see `C138_styles_violation`. -/
theorem C138_styles_partial (ops : List Op) (K : Info) (d : Doc) (h : write (run {} ops) K = .ok d)
    (pop : ∀ s, (run {} ops).sites.get? s.id = some s → s.siteType = .pop → s.status ≠ .unreachable)
    (calm : ∀ l, (run {} ops).links.get? ⟨l.tx, l.rx⟩ = some l → ¬ InNetwork l.status →
      K.util ⟨l.tx, l.rx⟩ ≤ 80 ∧ K.util ⟨l.rx, l.tx⟩ ≤ 80)
    (pos : ∀ x ∈ (run {} ops).demandSites.vals, ∀ q, x.demand = some q → 0 ≤ q) :
    ∀ m ∈ d.marks, m.style ∈ d.styles := by
  have inv := Inv.empty.run ops
  generalize run {} ops = t at *
  intro m hm
  have hst : d.styles = styleIds := by
    obtain ⟨_, _, _, _, _, _, _, _, _, _, _, _, rfl⟩ := write_parts h
    rfl
  rw [hst]
  rcases mem_marks h hm with ⟨x, hx, rfl⟩ | ⟨l, hl, hlm⟩ | ⟨x, hx, hxm⟩ | ⟨x, hx, hxm⟩
  · have hp : x.siteType = .pop → x.status ≠ .unreachable := by
      obtain ⟨⟨i, s⟩, hi, rfl⟩ := List.mem_map.1 hx
      have hg := (Dict.mem_iff_get? inv.nd_sites _ _).1 hi
      refine pop _ ?_
      have := inv.site_id _ _ hg
      dsimp only
      rw [this]; exact hg
    unfold siteMark
    dsimp only
    revert hp
    generalize x.siteType = ty
    generalize x.status = st
    cases ty <;> cases st <;> decide +kernel
  · have hc := calm l ((mem_vals_iff inv).1 hl)
    rcases linkMark_style inv hlm with he | ⟨hb, -, he⟩
    · rw [he]
      generalize l.status = st
      cases st <;> decide +kernel
    · rw [he]
      have hs : InNetwork l.status := by
        by_contra hn
        obtain ⟨c1, c2⟩ := hc hn
        rcases hb with hb | ⟨hb, -⟩
        · exact absurd hb (not_lt.2 c1)
        · exact absurd hb (not_lt.2 c2)
      revert hs
      rw [← active_iff]
      generalize l.status = st
      cases st <;> decide +kernel
  · unfold demandMark at hxm
    cases hs : demandScale (demandValues t) x with
    | error e => rw [hs] at hxm; cases hxm
    | ok n =>
      rw [hs] at hxm
      rw [Except.ok.injEq] at hxm
      rw [← hxm]
      dsimp only
      have hn : 0 ≤ n ∧ n ≤ 2 := by
        unfold demandScale at hs
        split at hs
        · cases hd : x.demand with
          | none => rw [hd] at hs; cases hs
          | some q =>
            rw [hd] at hs
            dsimp only at hs
            split at hs
            · cases hs
            have hq := pos x hx q hd
            have hM : 0 ≤ maxOf (demandValues t) := by
              have hmem : q ∈ demandValues t := mem_demandValues.2 ⟨x, hx, by rw [hd]; rfl⟩
              exact hq.trans ((maxOf_spec (List.ne_nil_of_mem hmem)).2 _ hmem)
            have ht : 0 ≤ truncate (q / maxOf (demandValues t) * 3) := by
              have h0 : 0 ≤ q / maxOf (demandValues t) * 3 := mul_nonneg (div_nonneg hq hM) (by norm_num)
              unfold truncate
              rw [if_neg (not_lt.2 h0)]
              exact Int.floor_nonneg.2 h0
            split at hs
            · cases hs; omega
            · cases hs; omega
        · cases hs; omega
      obtain ⟨n1, n2⟩ := hn
      interval_cases n <;> decide +kernel
  · obtain ⟨i, -, hx⟩ := List.mem_filterMap.1 hxm
    split at hx
    · cases hx
    · split at hx
      · rw [Option.some.injEq] at hx
        rw [← hx]
        dsimp only
        decide +kernel
      · cases hx

/-! ## Text -/

theorem adds_all {ogr : String → String} (ho : ∀ n ∈ dataNames, ogr n = launder n) {t : Topology} (inv : Inv t)
    (hp : ∀ s ∈ t.sites.vals, Plain s.id) (hd : ∀ d ∈ t.demandSites.vals, Plain d.id) {K : Info} {d : Doc}
    (h : write t K = .ok d) :
    ∃ xs ks, xs.Perm (allStatus.flatMap (linksOf t)) ∧ List.Forall₂ (SeenLink t K) xs ks ∧
      Adds ogr d.tops ((allStatus.flatMap (sitesOf t K)).map (rawOf K)) ks
        (t.demandSites.vals.map fun d => (d.lat, d.lon)) := by
  obtain ⟨a, b, c, e, f, dem, h1, h2, h3, h4, h5, hdem, rfl⟩ := write_parts h
  obtain ⟨x1, k1, p1, f1, a1⟩ := adds_status ho h1
  obtain ⟨x2, k2, p2, f2, a2⟩ := adds_status ho h2
  obtain ⟨x3, k3, p3, f3, a3⟩ := adds_status ho h3
  obtain ⟨x4, k4, p4, f4, a4⟩ := adds_status ho h4
  obtain ⟨x5, k5, p5, f5, a5⟩ := adds_status ho h5
  have a6 := adds_demand ogr inv hp hd hdem
  refine ⟨x1 ++ (x2 ++ (x3 ++ (x4 ++ x5))), k1 ++ (k2 ++ (k3 ++ (k4 ++ k5))), ?_, ?_, ?_⟩
  · simpa [allStatus] using p1.append (p2.append (p3.append (p4.append p5)))
  · exact List.rel_append f1 (List.rel_append f2 (List.rel_append f3 (List.rel_append f4 f5)))
  · simpa [allStatus] using (a1.append (a2.append (a3.append (a4.append a5)))).append a6

/-- **C138.** The file can be parsed exactly if the name of the topology, which is written as it is, can: names of
sites, devices and all other texts are escaped and are read as they were. The ids of sites and demand sites are
hashes without special characters. -/
theorem C138_wellformed_partial (ops : List Op) (K : Info) (d : Doc) (h : write (run {} ops) K = .ok d)
    (hp : ∀ s ∈ (run {} ops).sites.vals, Plain s.id) (hd : ∀ x ∈ (run {} ops).demandSites.vals, Plain x.id) :
    ((∃ ls, d.layers = some ls) ↔ ∃ s, readText K.title = some s) ∧
    (Plain K.title → ∃ ls, d.layers = some ls) := by
  have inv := Inv.empty.run ops
  generalize run {} ops = t at *
  obtain ⟨xs, ks, -, -, ls, hls, -⟩ := adds_all (ogr := launder) (fun _ _ => rfl) inv hp hd h
  have ht : d.title = if K.title = "" then "topology" else K.title := by
    obtain ⟨_, _, _, _, _, _, _, _, _, _, _, _, rfl⟩ := write_parts h
    rfl
  have e : (∃ ls, d.layers = some ls) ↔ ∃ s, readText K.title = some s := by
    unfold Doc.layers
    rw [hls, ht]
    by_cases c : K.title = ""
    · rw [if_pos c, c]
      have r1 : readText "topology" = some "topology" := by decide
      have r2 : readText "" = some "" := by decide
      rw [r1, r2]
      simp
    · rw [if_neg c]
      cases readText K.title <;> simp
  exact ⟨e, fun hpl => e.2 ⟨_, readText_plain _ hpl⟩⟩

/-! ## Links by name -/

theorem addRaws_near (S : InputSites) (ks : List KmlLink) (L M : Loader) (t : Topology) :
    t.addRaws S (ks.map (L.raw S)) = t.addRaws S (ks.map (M.raw S)) := by
  induction ks generalizing t with
  | nil => rfl
  | cons k ks ih =>
    have e1 : (L.raw S k).attr = (M.raw S k).attr := rfl
    have e2 : (L.raw S k).pairs S = (M.raw S k).pairs S := rfl
    rw [List.map_cons, List.map_cons]
    simp only [addRaws, e1, e2]
    split
    · exact ih t
    · split
      · rfl
      · split
        · rfl
        · exact ih _

theorem fromKml_near (S : InputSites) (ks : List KmlLink) (L M : Loader) :
    fromKml S (ks.map (L.raw S)) = fromKml S (ks.map (M.raw S)) := by
  unfold fromKml
  split
  · rfl
  · exact addRaws_near S ks L M _

/-- **C140.** What is loaded from a file does not depend on the sites near the ends of links: the search for them is
never used. -/
theorem C140_nearest_unused_violation (L : Loader) (ogr : String → String) (d : Doc)
    (f g : InputSites → ℚ × ℚ → Except Err (List Site)) :
    load { L with near := f } ogr d = load { L with near := g } ogr d := by
  unfold load
  cases readDoc ogr d with
  | error e => rfl
  | ok r =>
    dsimp only
    have e : Loader.sites { L with near := f } = Loader.sites { L with near := g } := rfl
    rw [e]
    cases r.sites.mapM (Loader.sites { L with near := g }) with
    | error e => rfl
    | ok xs =>
      dsimp only
      cases ({} : InputSites).load L.fold xs.flatten with
      | error e => rfl
      | ok S =>
        dsimp only
        rw [fromKml_near S r.links { L with near := f } { L with near := g }]

theorem load_parts {L : Loader} {ogr : String → String} {d : Doc} {S : InputSites} {t : Topology} {D : List (ℚ × ℚ)}
    (h : load L ogr d = .ok (S, t, D)) :
    ∃ r xs, readDoc ogr d = .ok r ∧ r.sites.mapM L.sites = .ok xs ∧
      ({} : InputSites).load L.fold xs.flatten = .ok S ∧ fromKml S (r.links.map (L.raw S)) = .ok t ∧ D = r.demand := by
  unfold load at h
  cases hr : readDoc ogr d with
  | error e => rw [hr] at h; cases h
  | ok r =>
    rw [hr] at h
    dsimp only at h
    cases hx : r.sites.mapM L.sites with
    | error e => rw [hx] at h; cases h
    | ok xs =>
      rw [hx] at h
      dsimp only at h
      cases hs : ({} : InputSites).load L.fold xs.flatten with
      | error e => rw [hs] at h; cases h
      | ok S' =>
        rw [hs] at h
        dsimp only at h
        cases ht : fromKml S' (r.links.map (L.raw S')) with
        | error e => rw [ht] at h; cases h
        | ok t' =>
          rw [ht] at h
          cases h
          exact ⟨r, xs, rfl, hx, hs, ht, rfl⟩

/-- **C140.** Each wireless link of a file that is loaded names two of its sites, and the topology has the link between
them in both directions, except out of a CN, with the status of the folder. -/
theorem C140_named_partial (L : Loader) (ogr : String → String) (d : Doc) (S : InputSites) (t : Topology)
    (D : List (ℚ × ℚ)) (h : load L ogr d = .ok (S, t, D)) (r : Read) (hr : readDoc ogr d = .ok r)
    (k : KmlLink) (hk : k ∈ r.links) (hw : k.typ ≠ .ethernet) :
    ∃ a ∈ S.list, ∃ b ∈ S.list, a.name = k.tx ∧ b.name = k.rx ∧
      t.sites.get? a.site.id = some a.site ∧ t.sites.get? b.site.id = some b.site ∧
      (a.site.siteType ≠ .cn → ∃ l, t.links.get? ⟨a.site.id, b.site.id⟩ = some l ∧ l.isWireless = true ∧
        l.status = k.status) ∧
      (b.site.siteType ≠ .cn → ∃ l, t.links.get? ⟨b.site.id, a.site.id⟩ = some l ∧ l.isWireless = true ∧
        l.status = k.status) := by
  obtain ⟨r', xs, hr', hx, hS, ht, -⟩ := load_parts h
  rw [hr] at hr'
  cases hr'
  rw [fromKml_near S r.links L { L with near := fun _ _ => .ok [] }] at ht
  set M : Loader := { L with near := fun _ _ => .ok [] } with hM
  have nd : (S.list.map (·.site.id)).Nodup := by
    unfold fromKml at ht
    rcases ofSites_cases (S.list.map (·.site)) with ⟨n, -⟩ | ⟨-, e⟩
    · simpa [List.map_map, Function.comp_def] using n
    · rw [e] at ht; cases ht
  have c := C104_kml_links L.fold xs.flatten S (r.links.map (M.raw S)) hS nd (by
    intro q hq A B hAB s hs
    obtain ⟨k, -, rfl⟩ := List.mem_map.1 hq
    have : (M.raw S k).near = .ok ([], []) := rfl
    rw [this] at hAB
    cases hAB
    cases hs)
  have hq : M.raw S k ∈ r.links.map (M.raw S) := List.mem_map.2 ⟨k, hk, rfl⟩
  obtain ⟨found, same, -⟩ := c.1.1 ⟨t, ht⟩
  have hwl : (M.raw S k).attr.isWireless = true := by
    change k.typ.isWireless = true
    revert hw
    cases k.typ <;> decide
  obtain ⟨ps, hps⟩ := found _ hq hwl
  have sound := (InputSites.C29_names_partial L.fold xs.flatten).2 S hS
  have hpairs : (M.raw S k).pairs S = (match S.getByName k.tx, S.getByName k.rx with
    | some a, some b => .ok [(a.site, b.site)]
    | _, _ => .error .data) := rfl
  rw [hpairs] at hps
  cases ha : S.getByName k.tx with
  | none => rw [ha] at hps; cases hps
  | some a =>
    cases hb : S.getByName k.rx with
    | none => rw [ha, hb] at hps; cases hps
    | some b =>
      rw [ha, hb] at hps hpairs
      cases hps
      obtain ⟨a1, a2⟩ := sound.2.1 _ _ ha
      obtain ⟨b1, b2⟩ := sound.2.1 _ _ hb
      obtain ⟨c1, c2⟩ := c.2 t ht
      have get : ∀ i j : SiteId, Wants S (M.raw S k) ⟨i, j⟩ → ∃ l, t.links.get? ⟨i, j⟩ = some l ∧ l.isWireless = true ∧
          l.status = k.status := by
        intro i j hwant
        -- the first that wants it
        have : ∃ pre q post, r.links.map (M.raw S) = pre ++ q :: post ∧ Wants S q ⟨i, j⟩ ∧
            ∀ p ∈ pre, ¬ Wants S p ⟨i, j⟩ := by
          rcases firstReq_raws S (r.links.map (M.raw S)) ⟨i, j⟩ with ⟨-, hn⟩ | ⟨_, pre, q, post, -, h1, h2, h3, -⟩
          · exact absurd hwant (hn _ hq)
          · exact ⟨pre, q, post, h1, h2, h3⟩
        obtain ⟨pre, q, post, h1, h2, h3⟩ := this
        refine ⟨_, (c2 ⟨i, j⟩ _).2 ⟨pre, q, post, h1, h2, h3, rfl⟩, rfl, ?_⟩
        have hqm : q ∈ r.links.map (M.raw S) := by rw [h1]; simp
        exact same _ q hqm _ hq h2 hwant
      refine ⟨a, a1, b, b1, a2, b2, (c1 _ _).2 ⟨rfl, a, a1, rfl⟩, (c1 _ _).2 ⟨rfl, b, b1, rfl⟩, fun hc => ?_, fun hc => ?_⟩
      · exact get _ _ ⟨hwl, _, hpairs, a.site, b.site, .inl (by simp), rfl, rfl, hc⟩
      · exact get _ _ ⟨hwl, _, hpairs, b.site, a.site, .inr (by simp), rfl, rfl, hc⟩

/-- **C140.** A file with a wireless link that does not name both sites is never loaded, wherever the link is drawn. -/
theorem C140_unnamed_violation (L : Loader) (ogr : String → String) (d : Doc) (r : Read) (hr : readDoc ogr d = .ok r)
    (k : KmlLink) (hk : k ∈ r.links) (hw : k.typ ≠ .ethernet) (hn : k.tx = "" ∨ k.rx = "")
    (S : InputSites) (t : Topology) (D : List (ℚ × ℚ)) (ids : ∀ a ∈ S.list, a.site.id ≠ "") :
    load L ogr d ≠ .ok (S, t, D) := by
  intro h
  obtain ⟨a, ha, b, hb, n1, n2, -⟩ := C140_named_partial L ogr d S t D h r hr k hk hw
  have ne : ∀ a ∈ S.list, a.name ≠ "" := by
    intro a ha
    unfold NamedSite.name
    split
    · exact ids a ha
    · assumption
  rcases hn with hn | hn
  · exact ne a ha (n1.trans hn)
  · exact ne b hb (n2.trans hn)

end Kml
end Verif
