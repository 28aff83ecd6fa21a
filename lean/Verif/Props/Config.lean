import Verif.Model.Config

/-!
# The devices of an accepted configuration

C33 and C105.
-/

namespace Verif

/-- The ranges `SectorParams` asks for. -/
structure SectorInRange (s : SectorCfg) : Prop where
  gain : 0 ≤ s.boresightGain
  power : 0 ≤ s.maxTxPower
  sectors : 1 ≤ s.sectorsPerNode
  scan : 0 ≤ s.scanRange ∧ s.scanRange ≤ 360
  carrier : 0 < s.carrierFrequency
  noise : 0 ≤ s.noiseFigure
  rain : 0 ≤ s.rainRate
  avail : 0 ≤ s.availability ∧ s.availability ≤ 100
  diversity : 0 ≤ s.txDiversity ∧ 0 ≤ s.rxDiversity
  loss : 0 ≤ s.txLoss ∧ 0 ≤ s.rxLoss
  mcs : ∀ m ∈ s.minMcs, 0 ≤ m
  minPower : ∀ p ∈ s.minTxPower, p ≤ s.maxTxPower

theorem assert_ok {α : Type} {p : Prop} [Decidable p] {e : Err} {x : Except Err α} {y : α} :
    (if ¬ p then .error e else x) = .ok y ↔ p ∧ x = .ok y := by
  by_cases h : p
  · rw [if_neg (not_not.2 h)]; exact ⟨fun c => ⟨h, c⟩, fun c => c.2⟩
  · rw [if_pos h]; exact ⟨fun c => (by cases c), fun c => absurd c.1 h⟩

theorem reject_ok {α : Type} {p : Prop} [Decidable p] {e : Err} {x : Except Err α} {y : α} :
    (if p then .error e else x) = .ok y ↔ ¬ p ∧ x = .ok y := by
  by_cases h : p
  · rw [if_pos h]; exact ⟨fun c => (by cases c), fun c => absurd h c.1⟩
  · rw [if_neg h]; exact ⟨fun c => ⟨h, c⟩, fun c => c.2⟩

theorem mkSector_ok {s s' : SectorCfg} (h : mkSector s = .ok s') : s' = s ∧ SectorInRange s := by
  unfold mkSector at h
  obtain ⟨h1, h⟩ := assert_ok.1 h
  obtain ⟨h2, h⟩ := assert_ok.1 h
  obtain ⟨h3, h⟩ := assert_ok.1 h
  obtain ⟨h4, h⟩ := assert_ok.1 h
  obtain ⟨h5, h⟩ := assert_ok.1 h
  obtain ⟨h6, h⟩ := assert_ok.1 h
  obtain ⟨h7, h⟩ := assert_ok.1 h
  obtain ⟨h8, h⟩ := assert_ok.1 h
  obtain ⟨h9, h⟩ := assert_ok.1 h
  obtain ⟨h10, h⟩ := assert_ok.1 h
  obtain ⟨h11, h⟩ := assert_ok.1 h
  obtain ⟨h12, h⟩ := assert_ok.1 h
  exact ⟨(Except.ok.inj h).symm, h1, h2, h3, h4, h5, h6, h7, h8, h9, h10, h11, h12⟩

theorem mkSector_iff (s : SectorCfg) : mkSector s = .ok s ↔ SectorInRange s := by
  constructor
  · exact fun h => (mkSector_ok h).2
  · rintro ⟨h1, h2, h3, h4, h5, h6, h7, h8, h9, h10, h11, h12⟩
    unfold mkSector
    exact assert_ok.2 ⟨h1, assert_ok.2 ⟨h2, assert_ok.2 ⟨h3, assert_ok.2 ⟨h4, assert_ok.2 ⟨h5, assert_ok.2 ⟨h6,
      assert_ok.2 ⟨h7, assert_ok.2 ⟨h8, assert_ok.2 ⟨h9, assert_ok.2 ⟨h10, assert_ok.2 ⟨h11,
      assert_ok.2 ⟨h12, rfl⟩⟩⟩⟩⟩⟩⟩⟩⟩⟩⟩⟩

/-- What `DeviceData` asks for. -/
structure DeviceInRange (d : DeviceCfg) : Prop where
  named : d.sku ≠ ""
  capex : 0 ≤ d.nodeCapex
  nodes : 1 ≤ d.nodes
  cn : d.deviceType = .cn → d.nodes = 1
  circle : d.sector.scanRange * d.sector.sectorsPerNode * d.nodes ≤ 360

theorem mkDevice_ok {sku : String} {s : SectorCfg} {c : ℚ} {n : Option Int} {ty : DeviceType} {d : DeviceCfg}
    (h : mkDevice sku s c n ty = .ok d) :
    (d.sku = sku ∧ d.sector = s ∧ d.nodeCapex = c ∧ d.deviceType = ty ∧ (∀ k ∈ n, d.nodes = k)
      ∧ (n = none → d.nodes = if ty = .cn then 1 else 4)) ∧ DeviceInRange d := by
  unfold mkDevice at h
  obtain ⟨h1, h⟩ := reject_ok.1 h
  obtain ⟨h2, h⟩ := assert_ok.1 h
  obtain ⟨h3, h⟩ := assert_ok.1 h
  obtain ⟨h4, h⟩ := reject_ok.1 h
  dsimp only at h
  obtain ⟨h5, h⟩ := assert_ok.1 h
  cases Except.ok.inj h
  refine ⟨⟨rfl, rfl, rfl, rfl, ?_, ?_⟩, h1, h2, ?_, ?_, h5⟩
  · intro k hk; cases n <;> simp_all
  · intro hn; simp_all
  · cases n with
    | none => show (1 : Int) ≤ if ty = .cn then 1 else 4; split_ifs <;> decide
    | some k => simpa using h3
  · intro hc; cases n <;> simp_all

theorem checkDuplicated_iff (fold : String → String) : ∀ (ds : List DeviceCfg) (seen : List String),
    checkDuplicated fold seen ds = .ok () ↔
      (ds.map fun d => fold d.sku).Nodup ∧ ∀ d ∈ ds, fold d.sku ∉ seen
  | [], seen => by simp [checkDuplicated]
  | d :: rest, seen => by
    simp only [checkDuplicated]
    by_cases h : fold d.sku ∈ seen
    · simp [h]
    · rw [List.forall_mem_cons]
      simp only [List.contains_iff_mem, h, if_false, checkDuplicated_iff fold rest, List.map_cons, List.nodup_cons,
        List.mem_map, List.mem_cons, not_or, not_false_eq_true, true_and]
      constructor
      · rintro ⟨nd, hs⟩
        exact ⟨⟨fun ⟨e, he, heq⟩ => (hs e he).1 heq, nd⟩, fun e he => (hs e he).2⟩
      · rintro ⟨⟨hn, nd⟩, hs⟩
        exact ⟨nd, fun e he => ⟨fun heq => hn ⟨e, he, heq⟩, hs e he⟩⟩

theorem checkDuplicated_error (fold : String → String) : ∀ (ds : List DeviceCfg) (seen : List String) (e : Err),
    checkDuplicated fold seen ds = .error e → e = .config
  | [], _, _, h => by simp [checkDuplicated] at h
  | d :: rest, seen, e, h => by
    simp only [checkDuplicated] at h
    split_ifs at h
    · cases h; rfl
    · exact checkDuplicated_error fold rest _ e h

/-- **C33.** A list of devices is accepted exactly if it is not empty and the SKUs of any two devices in it differ
even when case is ignored. A list with a clash is rejected with a `ConfigException`, and an accepted list keeps its
devices and their SKUs in the order given. -/
theorem C33_device_skus (fold : String → String) (r : ProjectRadio) (ds : List DeviceCfg) :
    ((∃ out, acceptDevices fold r ds = .ok out) ↔
      ds ≠ [] ∧ ∀ (i j : Nat) (hi : i < ds.length) (hj : j < ds.length), i ≠ j → fold ds[i].sku ≠ fold ds[j].sku)
    ∧ (∀ e, acceptDevices fold r ds = .error e → e = .config)
    ∧ (∀ out, acceptDevices fold r ds = .ok out → out.map (·.sku) = ds.map (·.sku)) := by
  have key : (∀ (i j : Nat) (hi : i < ds.length) (hj : j < ds.length), i ≠ j → fold ds[i].sku ≠ fold ds[j].sku)
      ↔ checkDuplicated fold [] ds = .ok () := by
    rw [checkDuplicated_iff]
    simp only [List.not_mem_nil, not_false_eq_true, implies_true, and_true]
    rw [List.nodup_iff_injective_get]
    constructor
    · intro h a b hab
      by_contra hne
      refine h a b (by simpa using a.2) (by simpa using b.2) (fun c => hne (Fin.ext c)) ?_
      simpa using hab
    · intro h i j hi hj hne heq
      have := @h ⟨i, by simpa using hi⟩ ⟨j, by simpa using hj⟩ (by simpa using heq)
      exact hne (by simpa using this)
  rw [key]
  unfold acceptDevices
  by_cases h0 : ds.length = 0
  · have : ds = [] := List.length_eq_zero_iff.1 h0
    subst this
    simp
  · rw [if_neg h0]
    have hne : ds ≠ [] := fun c => h0 (by simp [c])
    cases hc : checkDuplicated fold [] ds with
    | error e =>
      have := checkDuplicated_error fold ds [] e hc
      simp [this]
    | ok u =>
      cases u
      simp [hne, populate]

/-- Two devices whose SKUs differ only by case are rejected, two different ones accepted. -/
example : acceptDevices String.toLower {} [⟨"Alpha", {}, 250, 4, .dn⟩, ⟨"ALPHA", {}, 250, 1, .cn⟩] = .error .config
    ∧ ∃ o ∈ (acceptDevices String.toLower {} [⟨"Alpha", {}, 250, 4, .dn⟩, ⟨"Beta", {}, 250, 1, .cn⟩]).toOption,
        o.length = 2 := by decide +kernel

/-- The ranges in which `SectorParams` wants the parameters of the project to be. -/
structure RadioInRange (r : ProjectRadio) : Prop where
  carrier : 0 < r.carrierFrequency
  noise : 0 ≤ r.noiseFigure
  rain : 0 ≤ r.rainRate
  avail : 0 ≤ r.availability ∧ r.availability ≤ 100

/-- A device made by the constructors of `SectorParams` and `DeviceData`. -/
def MadeDevice (d : DeviceCfg) : Prop :=
  ∃ s0 s sku capex nodes typ, mkSector s0 = .ok s ∧ mkDevice sku s capex nodes typ = .ok d

/-- **C105 (partial).** Once a list of constructed devices is accepted, every device has the project's carrier
frequency, noise, rain rate and availability and is otherwise the device given; it has at least one node, exactly one
if it is a CN device; and its sectors together span at most 360 degrees. Missing: the sector parameters are in the
ranges that `SectorParams` enforces only if the parameters of the project are, which nothing checks
(`C105_project_range_violation`). -/
theorem C105_accepted_devices_partial (fold : String → String) (r : ProjectRadio) (ds out : List DeviceCfg)
    (made : ∀ d ∈ ds, MadeDevice d) (h : acceptDevices fold r ds = .ok out) :
    out.length = ds.length ∧
    ∀ (i : Nat) (hi : i < ds.length) (ho : i < out.length),
      out[i].sector.carrierFrequency = r.carrierFrequency
      ∧ out[i].sector.thermalNoise = r.thermalNoise
      ∧ out[i].sector.noiseFigure = r.noiseFigure
      ∧ out[i].sector.rainRate = r.rainRate
      ∧ out[i].sector.availability = r.availability
      ∧ out[i] = { ds[i] with sector := { ds[i].sector with
          carrierFrequency := r.carrierFrequency, thermalNoise := r.thermalNoise, noiseFigure := r.noiseFigure
          rainRate := r.rainRate, availability := r.availability } }
      ∧ DeviceInRange out[i]
      ∧ (RadioInRange r → SectorInRange out[i].sector) := by
  unfold acceptDevices at h
  split_ifs at h with h0
  cases hc : checkDuplicated fold [] ds with
  | error e => rw [hc] at h; cases h
  | ok u =>
    rw [hc] at h
    cases Except.ok.inj h
    refine ⟨by simp, fun i hi ho => ?_⟩
    obtain ⟨s0, s, sku, capex, nodes, typ, hs, hd⟩ := made ds[i] (List.getElem_mem hi)
    obtain ⟨⟨_, hsec, _⟩, hr⟩ := mkDevice_ok hd
    obtain ⟨rfl, hs⟩ := mkSector_ok hs
    simp only [List.getElem_map]
    refine ⟨rfl, rfl, rfl, rfl, rfl, rfl, ⟨hr.named, hr.capex, hr.nodes, hr.cn, hr.circle⟩, fun hR => ?_⟩
    rw [← hsec] at hs
    exact ⟨hs.gain, hs.power, hs.sectors, hs.scan, hR.carrier, hR.noise, hR.rain, hR.avail, hs.diversity, hs.loss,
      hs.mcs, hs.minPower⟩

/-- A constructed CN device and a constructed DN device are accepted together. -/
example : ∃ d1 d2 out, MadeDevice d1 ∧ MadeDevice d2 ∧ d2.deviceType = .cn
    ∧ acceptDevices String.toLower { carrierFrequency := 58000 } [d1, d2] = .ok out := by
  exact ⟨⟨"A", {}, 250, 4, .dn⟩, ⟨"B", {}, 250, 1, .cn⟩,
    [⟨"A", { carrierFrequency := 58000 }, 250, 4, .dn⟩, ⟨"B", { carrierFrequency := 58000 }, 250, 1, .cn⟩],
    ⟨{}, {}, "A", 250, none, .dn, by decide +kernel, by decide +kernel⟩,
    ⟨{}, {}, "B", 250, none, .cn, by decide +kernel, by decide +kernel⟩, rfl, by decide +kernel⟩

/-- **C105 violated.** A project with a negative carrier frequency, a negative rain rate or an availability of 200 %
is accepted, and every sector gets these values, though `SectorParams` rejects each of them. -/
theorem C105_project_range_violation :
    ∃ (r : ProjectRadio) (d : DeviceCfg) (out : List DeviceCfg), MadeDevice d
      ∧ acceptDevices String.toLower r [d] = .ok out
      ∧ ∀ d' ∈ out, d'.sector.carrierFrequency < 0 ∧ d'.sector.rainRate < 0 ∧ 100 < d'.sector.availability
          ∧ mkSector d'.sector = .error .config := by
  refine ⟨{ carrierFrequency := -1, rainRate := -1, availability := 200 }, ⟨"A", {}, 250, 4, .dn⟩, _,
    ⟨{}, {}, "A", 250, none, .dn, by decide +kernel, by decide +kernel⟩, rfl, ?_⟩
  decide +kernel

end Verif
