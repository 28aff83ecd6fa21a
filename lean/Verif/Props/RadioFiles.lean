import Verif.Model.RadioFiles
import Verif.Props.Csv3
import Verif.Props.LinkBudget2
import Verif.Props.RateTable

/-!
# Files that describe radios (C148, C149)
-/

namespace Verif
namespace RadioFiles
open Csv (Lib mapM_iff demoLib)

/-! ## C148: antenna patterns -/

/-- An antenna of a file: its name, other rows of its header, and the losses per degree with the texts of the file. -/
structure Antenna where
  name : String
  before : List Row
  middle : List Row
  size : String
  hor : List Row
  size' : String
  ver : List Row

/-- The rows of an antenna: `NAME`, the header, `HORIZONTAL` and its losses, `VERTICAL` and its losses. -/
def Antenna.rows (a : Antenna) : List Row :=
  a.before ++ ("NAME", a.name) :: a.middle ++ ("HORIZONTAL", a.size) :: a.hor ++ ("VERTICAL", a.size') :: a.ver

/-- No row of the list is one of the three that structure the file. -/
def Plain (rows : List Row) : Prop := ∀ r ∈ rows, r.1 ≠ "NAME" ∧ r.1 ≠ "HORIZONTAL" ∧ r.1 ≠ "VERTICAL"

/-- The texts of the rows are numbers, the second ones the given numbers. -/
def Losses (lib : Lib) (rows : List Row) (xs : List ℚ) : Prop :=
  List.Forall₂ (fun r x => (lib.float r.1).isSome ∧ lib.float r.2 = some x) rows xs

/-- An antenna in the usual format: 360 horizontal and 360 vertical losses. -/
structure WellFormed (lib : Lib) (a : Antenna) (xs ys : List ℚ) : Prop where
  before : Plain a.before
  middle : Plain a.middle
  horPlain : Plain a.hor
  verPlain : Plain a.ver
  hor : Losses lib a.hor xs
  ver : Losses lib a.ver ys
  horLen : xs.length = 360
  verLen : ys.length = 360

theorem starts_append (key : String) (n : ℕ) (xs ys : List Row) :
    starts key n (xs ++ ys) = starts key n xs ++ starts key (n + xs.length) ys := by
  induction xs generalizing n with
  | nil => simp [starts]
  | cons r xs ih =>
    rw [List.cons_append, starts, starts]
    rw [ih, List.length_cons, show n + (xs.length + 1) = n + 1 + xs.length by omega]
    split <;> simp

theorem starts_plain {key : String} (hk : key = "NAME" ∨ key = "HORIZONTAL" ∨ key = "VERTICAL") {xs : List Row}
    (h : Plain xs) (n : ℕ) : starts key n xs = [] := by
  induction xs generalizing n with
  | nil => rfl
  | cons r xs ih =>
    have hr := h r (by simp)
    unfold starts
    rw [if_neg (by rcases hk with rfl | rfl | rfl <;> tauto)]
    exact ih (fun r hr => h r (by simp [hr])) _

theorem starts_antenna {lib : Lib} {a : Antenna} {hor ver : List ℚ} (w : WellFormed lib a hor ver) (n : ℕ) :
    starts "NAME" n a.rows = [n + a.before.length] ∧
    starts "HORIZONTAL" n a.rows = [n + (a.before.length + 1 + a.middle.length)] ∧
    starts "VERTICAL" n a.rows = [n + (a.before.length + 1 + a.middle.length + 1 + a.hor.length)] := by
  unfold Antenna.rows
  refine ⟨?_, ?_, ?_⟩
  · simp only [starts_append, List.append_assoc, List.cons_append, starts, starts_plain (Or.inl rfl) w.before,
      starts_plain (Or.inl rfl) w.middle, starts_plain (Or.inl rfl) w.horPlain, starts_plain (Or.inl rfl) w.verPlain]
    simp
  · have hk : "HORIZONTAL" = "NAME" ∨ "HORIZONTAL" = "HORIZONTAL" ∨ "HORIZONTAL" = "VERTICAL" := by simp
    simp only [starts_append, List.append_assoc, List.cons_append, starts, starts_plain hk w.before,
      starts_plain hk w.middle, starts_plain hk w.horPlain, starts_plain hk w.verPlain]
    simp
    omega
  · have hk : "VERTICAL" = "NAME" ∨ "VERTICAL" = "HORIZONTAL" ∨ "VERTICAL" = "VERTICAL" := by simp
    simp only [starts_append, List.append_assoc, List.cons_append, starts, starts_plain hk w.before,
      starts_plain hk w.middle, starts_plain hk w.horPlain, starts_plain hk w.verPlain]
    simp
    omega

theorem losses_mapM {lib : Lib} {rows : List Row} {xs : List ℚ} (h : Losses lib rows xs) :
    (rows.mapM fun r => match lib.float r.1, lib.float r.2 with
      | some _, some x => (.ok (-1 * x) : Except Err ℚ)
      | _, _ => .error .data) = .ok (xs.map (- ·)) := by
  rw [mapM_iff]
  unfold Losses at h
  induction h with
  | nil => exact .nil
  | cons hd _ ih =>
    refine .cons ?_ ih
    obtain ⟨h1, h2⟩ := hd
    obtain ⟨y, hy⟩ := Option.isSome_iff_exists.1 h1
    rw [hy, h2]
    simp

theorem gains_at {lib : Lib} {pre mid post : List Row} {r : Row} {xs : List ℚ} (h : Losses lib mid xs)
    (hl : xs.length = 360) : gains lib (pre ++ r :: mid ++ post) pre.length = .ok (xs.map (- ·)) := by
  unfold gains
  have hm : mid.length = 360 := by rw [List.Forall₂.length_eq h, hl]
  have e : (pre ++ r :: mid ++ post).drop (pre.length + 1) = mid ++ post := by
    rw [List.append_assoc, ← List.drop_drop, List.drop_left]
    simp
  rw [e, ← hm, List.take_left]
  exact losses_mapM h

/-- What a file with the given antennas is read as: the gains of an antenna are its losses with the sign changed, in the
order of the file. -/
def Meaning (lib : Lib) (as : List (Antenna × List ℚ × List ℚ)) : Budget.Antennas :=
  as.foldl (fun acc a => acc.set (lib.norm a.1.name) (a.2.1.map (- ·), a.2.2.map (- ·))) []

theorem antennas_eq {lib : Lib} (as : List (Antenna × List ℚ × List ℚ))
    (hw : ∀ a ∈ as, WellFormed lib a.1 a.2.1 a.2.2) (pre : List Row) (acc : Budget.Antennas) :
    antennas lib (pre ++ as.flatMap (fun a => a.1.rows)) (starts "NAME" pre.length (as.flatMap (fun a => a.1.rows)))
      (starts "HORIZONTAL" pre.length (as.flatMap (fun a => a.1.rows)))
      (starts "VERTICAL" pre.length (as.flatMap (fun a => a.1.rows))) acc =
    .ok (as.foldl (fun acc a => acc.set (lib.norm a.1.name) (a.2.1.map (- ·), a.2.2.map (- ·))) acc) := by
  induction as generalizing pre acc with
  | nil => rfl
  | cons x as ih =>
    obtain ⟨a, hor, ver⟩ := x
    have w : WellFormed lib a hor ver := hw (a, hor, ver) (by simp)
    obtain ⟨s1, s2, s3⟩ := starts_antenna w pre.length
    rw [List.flatMap_cons, starts_append, starts_append, starts_append, s1, s2, s3]
    simp only [List.cons_append, List.nil_append]
    unfold antennas
    set F := as.flatMap (fun a => a.1.rows) with hF
    have g1 : gains lib (pre ++ (a.rows ++ F)) (pre.length + (a.before.length + 1 + a.middle.length)) =
        .ok (hor.map (- ·)) := by
      have := gains_at (pre := pre ++ (a.before ++ ("NAME", a.name) :: a.middle)) (r := ("HORIZONTAL", a.size))
        (post := ("VERTICAL", a.size') :: a.ver ++ F) w.hor w.horLen
      rw [← this]
      congr 1
      · unfold Antenna.rows; simp
      · simp; omega
    have g2 : gains lib (pre ++ (a.rows ++ F))
        (pre.length + (a.before.length + 1 + a.middle.length + 1 + a.hor.length)) = .ok (ver.map (- ·)) := by
      have := gains_at
        (pre := pre ++ (a.before ++ ("NAME", a.name) :: a.middle ++ ("HORIZONTAL", a.size) :: a.hor))
        (r := ("VERTICAL", a.size')) (post := F) w.ver w.verLen
      rw [← this]
      congr 1
      · unfold Antenna.rows; simp
      · simp; omega
    have g3 : (pre ++ (a.rows ++ F))[pre.length + a.before.length]? = some ("NAME", a.name) := by
      have : pre ++ (a.rows ++ F) = (pre ++ a.before) ++ ("NAME", a.name) :: (a.middle ++ ("HORIZONTAL", a.size) :: a.hor ++
        ("VERTICAL", a.size') :: a.ver ++ F) := by unfold Antenna.rows; simp
      rw [this, List.getElem?_append_right (by simp)]
      simp
    rw [g1, g2, g3]
    dsimp only
    have := ih (fun a ha => hw a (by simp [ha])) (pre ++ a.rows) (acc.set (lib.norm a.name) (hor.map (- ·), ver.map (- ·)))
    rw [List.length_append, List.append_assoc] at this
    rw [this]
    rfl

/-- **C148.** A file with one or more antennas in the usual format, each with 360 horizontal and 360 vertical losses, is
read, and each antenna gets the gains of its last mention: the losses with the sign changed, in the order of the file.
The full claim is also that other files are rejected, which is false, see below. -/
theorem C148_pattern_partial (lib : Lib) (as : List (Antenna × List ℚ × List ℚ)) (hne : as ≠ [])
    (hw : ∀ a ∈ as, WellFormed lib a.1 a.2.1 a.2.2) :
    ∃ d, readPattern lib (as.flatMap fun a => a.1.rows) = .ok d ∧
      ∀ front a hor ver back, as = front ++ (a, hor, ver) :: back →
        (∀ b ∈ back, lib.norm b.1.name ≠ lib.norm a.name) →
        d.get? (lib.norm a.name) = some (hor.map (- ·), ver.map (- ·)) := by
  refine ⟨Meaning lib as, ?_, ?_⟩
  · unfold readPattern
    have hn : starts "NAME" 0 (as.flatMap fun a => a.1.rows) ≠ [] := by
      cases as with
      | nil => exact absurd rfl hne
      | cons x as =>
        rw [List.flatMap_cons, starts_append, (starts_antenna (hw x (by simp)) 0).1]
        simp
    rw [if_neg hn]
    exact antennas_eq as hw [] []
  · intro front a hor ver back e hlast
    unfold Meaning
    rw [e, List.foldl_append, List.foldl_cons]
    generalize List.foldl (fun acc (a : Antenna × List ℚ × List ℚ) =>
      Dict.set acc (lib.norm a.1.name) (a.2.1.map (- ·), a.2.2.map (- ·))) ([] : Budget.Antennas) front = acc
    have : ∀ (back : List (Antenna × List ℚ × List ℚ)) (acc : Budget.Antennas),
        (∀ b ∈ back, lib.norm b.1.name ≠ lib.norm a.name) →
        Dict.get? (back.foldl (fun acc a => acc.set (lib.norm a.1.name) (a.2.1.map (- ·), a.2.2.map (- ·))) acc)
          (lib.norm a.name) = acc.get? (lib.norm a.name) := by
      intro back
      induction back with
      | nil => intro acc _; rfl
      | cons b back ih =>
        intro acc hb
        rw [List.foldl_cons, ih _ (fun x hx => hb x (by simp [hx])),
          Dict.get?_set, if_neg (hb b (by simp))]
    rw [this back _ hlast, Dict.get?_set_self]

/-- An antenna with losses of 0 in all directions; only `"0"` is a number. -/
def demoAntenna : Antenna :=
  ⟨"Horn", [], [("GAIN", "20 DBI")], "360", List.replicate 360 ("0", "0"), "360", List.replicate 360 ("0", "0")⟩

theorem demoLosses : Losses demoLib (List.replicate 360 ("0", "0")) (List.replicate 360 0) := by
  unfold Losses
  generalize 360 = n
  induction n with
  | zero => exact .nil
  | succ n ih =>
    rw [List.replicate_succ, List.replicate_succ]
    exact .cons ⟨by decide +kernel, by decide +kernel⟩ ih

theorem demoAntenna_wellFormed : WellFormed demoLib demoAntenna (List.replicate 360 0) (List.replicate 360 0) := by
  have hp : Plain (List.replicate 360 ("0", "0")) := by
    intro r hr
    rw [List.eq_of_mem_replicate hr]
    decide
  have h1 : Plain demoAntenna.before := fun r hr => absurd hr (List.not_mem_nil)
  have h2 : Plain demoAntenna.middle := fun r hr => by rw [List.mem_singleton.1 hr]; decide
  exact ⟨h1, h2, hp, hp, demoLosses, demoLosses, List.length_replicate, List.length_replicate⟩

theorem single_read {lib : Lib} {a : Antenna} {xs ys : List ℚ} (w : WellFormed lib a xs ys) :
    ∃ d, readPattern lib a.rows = .ok d ∧ d.get? (lib.norm a.name) = some (xs.map (- ·), ys.map (- ·)) := by
  obtain ⟨d, e, h⟩ := C148_pattern_partial lib [(a, xs, ys)] (List.cons_ne_nil _ _)
    (by intro b hb; rw [List.mem_singleton.1 hb]; exact w)
  rw [List.flatMap_singleton] at e
  exact ⟨d, e, h [] a xs ys [] rfl (fun b hb => absurd hb List.not_mem_nil)⟩

example : ∃ d, readPattern demoLib demoAntenna.rows = .ok d ∧ d.get? (demoLib.norm "Horn") =
    some ((List.replicate 360 0).map (- ·), (List.replicate 360 0).map (- ·)) :=
  single_read demoAntenna_wellFormed

/-- **C148 is false of the code:** a file whose last antenna ends too early is accepted. The gain of that antenna then
raises `IndexError` in the directions that are missing. -/
theorem C148_short_violation : ∃ rows d,
    rows = ("NAME", "Horn") :: ("HORIZONTAL", "360") :: List.replicate 360 ("0", "0") ++
      [("VERTICAL", "360"), ("0", "0"), ("0", "0")] ∧
    readPattern demoLib rows = .ok d ∧
    Budget.patternGain 30 0 (.antenna d) 0 0 = .ok 30 ∧ Budget.patternGain 30 0 (.antenna d) 0 10 = .error .keyError :=
  ⟨_, [("horn", List.replicate 360 0, [0, 0])], rfl, by decide +kernel, by decide +kernel, by decide +kernel⟩

/-- **C148 is false of the code:** the angles that stand before the losses are not looked at. If the rows of the
horizontal losses are reversed, angles and all, the file is read as if the pattern were mirrored. -/
theorem C148_angle_violation (lib : Lib) (a : Antenna) (xs ys : List ℚ) (w : WellFormed lib a xs ys) :
    ∃ d, readPattern lib { a with hor := a.hor.reverse }.rows = .ok d ∧
      d.get? (lib.norm a.name) = some (xs.reverse.map (- ·), ys.map (- ·)) :=
  single_read (a := { a with hor := a.hor.reverse })
    ⟨w.before, w.middle, fun r hr => w.horPlain r (List.mem_reverse.1 hr), w.verPlain, List.rel_reverse w.hor, w.ver,
      by rw [List.length_reverse, w.horLen], w.verLen⟩

/-! ## C149: rate tables -/

/-- Column `i`, and no other, has a name that contains `key`. -/
def Only (names : List String) (key : String) (i : ℕ) : Prop :=
  ∀ j n, names[j]? = some n → (key.toList <:+: n.toList ↔ j = i)

/-- The number in column `i` of a row. -/
def NumberAt (lib : Lib) (r : List String) (i : ℕ) (x : ℚ) : Prop := ∃ s, r[i]? = some s ∧ lib.float s = some x

/-- A file with four columns, one of them called `tx_backoff`, and for each key a column of its own; the rows have a
number in each column. -/
def FourColumns (lib : Lib) (header : List String) (rows : List (List String)) (raws : List RawRow) : Prop :=
  header.length = 4 ∧ "tx_backoff" ∈ header.map lib.norm ∧
  ∃ a b c d, a < 4 ∧ b < 4 ∧ c < 4 ∧ d < 4 ∧ [a, b, c, d].Nodup ∧
    Only (header.map lib.norm) "mcs" a ∧ Only (header.map lib.norm) "snr" b ∧ Only (header.map lib.norm) "mbps" c ∧
    Only (header.map lib.norm) "tx_backoff" d ∧
    List.Forall₂ (fun r q => r.length = 4 ∧ NumberAt lib r a q.mcs ∧ NumberAt lib r b q.snr ∧ NumberAt lib r c q.mbps ∧
      NumberAt lib r d q.txBackoff) rows raws

/-- A file with three columns, none of them for the back-off, which is 0. -/
def ThreeColumns (lib : Lib) (header : List String) (rows : List (List String)) (raws : List RawRow) : Prop :=
  header.length = 3 ∧ (∀ n ∈ header.map lib.norm, ¬ "tx_backoff".toList <:+: n.toList) ∧
  ∃ a b c, a < 3 ∧ b < 3 ∧ c < 3 ∧ [a, b, c].Nodup ∧
    Only (header.map lib.norm) "mcs" a ∧ Only (header.map lib.norm) "snr" b ∧ Only (header.map lib.norm) "mbps" c ∧
    List.Forall₂ (fun r q => r.length = 3 ∧ NumberAt lib r a q.mcs ∧ NumberAt lib r b q.snr ∧ NumberAt lib r c q.mbps ∧
      q.txBackoff = 0) rows raws

theorem columns_iff' (names : List String) (key : String) (i : ℕ) :
    columns names key = [i] ↔ i < names.length ∧ Only names key i := by
  have hmem : ∀ j, j ∈ columns names key ↔ ∃ n, names[j]? = some n ∧ key.toList <:+: n.toList := by
    intro j
    unfold columns
    rw [List.mem_filter, List.mem_range, decide_eq_true_eq, List.getD_eq_getElem?_getD]
    constructor
    · rintro ⟨h1, h2⟩
      rw [List.getElem?_eq_getElem h1] at h2 ⊢
      exact ⟨_, rfl, h2⟩
    · rintro ⟨n, h1, h2⟩
      rw [h1]
      exact ⟨(List.getElem?_eq_some_iff.1 h1).1, h2⟩
  have hnd : (columns names key).Nodup := List.nodup_range.filter _
  constructor
  · intro h
    have hi : i ∈ columns names key := by rw [h]; simp
    obtain ⟨n, h1, _⟩ := (hmem i).1 hi
    refine ⟨(List.getElem?_eq_some_iff.1 h1).1, fun j m hm => ⟨fun hk => ?_, ?_⟩⟩
    · have : j ∈ columns names key := (hmem j).2 ⟨m, hm, hk⟩
      rw [h] at this
      simpa using this
    · rintro rfl
      obtain ⟨n, h1, h2⟩ := (hmem j).1 hi
      rw [hm] at h1
      cases h1
      exact h2
  · rintro ⟨hi, ho⟩
    have key1 : ∀ j, j ∈ columns names key ↔ j = i := by
      intro j
      rw [hmem]
      constructor
      · rintro ⟨n, h1, h2⟩; exact (ho j n h1).1 h2
      · rintro rfl
        exact ⟨names[j], List.getElem?_eq_getElem hi, (ho j _ (List.getElem?_eq_getElem hi)).2 rfl⟩
    generalize columns names key = l at hnd key1
    cases l with
    | nil => exact absurd ((key1 i).2 rfl) List.not_mem_nil
    | cons x l =>
      have hx : x = i := (key1 x).1 (by simp)
      cases l with
      | nil => rw [hx]
      | cons y l =>
        have hy : y = i := (key1 y).1 (by simp)
        rw [List.nodup_cons] at hnd
        exact absurd (by rw [hx, hy]; simp) hnd.1

theorem rateRow_iff (lib : Lib) {a b c d : ℕ} {r : List String} (h : r.length = 4) (ha : a < 4) (hb : b < 4) (hc : c < 4)
    (hd : d < 4) (q : RawRow) : rateRow lib a b c d r = .ok q ↔
      NumberAt lib r a q.mcs ∧ NumberAt lib r b q.snr ∧ NumberAt lib r c q.mbps ∧ NumberAt lib r d q.txBackoff := by
  have hn : ∀ i, i < 4 → ∀ x, NumberAt lib r i x ↔ lib.float (r.getD i "") = some x := by
    intro i hi x
    unfold NumberAt
    rw [List.getD_eq_getElem?_getD, List.getElem?_eq_getElem (by omega)]
    simp
  rw [hn a ha, hn b hb, hn c hc, hn d hd]
  unfold rateRow
  constructor
  · intro e
    split at e
    · rename_i h1 h2 h3 h4
      cases e
      exact ⟨h1, h2, h3, h4⟩
    · cases e
  · rintro ⟨h1, h2, h3, h4⟩
    rw [h1, h2, h3, h4]

/-- The part of `readRates` after the column has been added. -/
theorem readRates_core (lib : Lib) (p : SectorParams) (header : List String) (rows : List (List String))
    (tbl : List McsRow) : readRates lib p (header :: rows) = .ok tbl ↔
    ∃ raws, (withBackoff lib header rows).1.length = 4 ∧
      (∃ a b c d, a < 4 ∧ b < 4 ∧ c < 4 ∧ d < 4 ∧ [a, b, c, d].Nodup ∧
        Only (withBackoff lib header rows).1 "mcs" a ∧ Only (withBackoff lib header rows).1 "snr" b ∧
        Only (withBackoff lib header rows).1 "mbps" c ∧ Only (withBackoff lib header rows).1 "tx_backoff" d ∧
        List.Forall₂ (fun r q => r.length = 4 ∧ NumberAt lib r a q.mcs ∧ NumberAt lib r b q.snr ∧
          NumberAt lib r c q.mbps ∧ NumberAt lib r d q.txBackoff) (withBackoff lib header rows).2 raws) ∧
      readRateTable p raws = .ok tbl := by
  unfold readRates
  dsimp only
  generalize withBackoff lib header rows = w
  obtain ⟨names, rs⟩ := w
  dsimp only
  have hall : ∀ (rs : List (List String)) (raws : List RawRow) (a b c d : ℕ), a < 4 → b < 4 → c < 4 → d < 4 →
      (List.Forall₂ (fun r q => r.length = 4 ∧ NumberAt lib r a q.mcs ∧ NumberAt lib r b q.snr ∧
          NumberAt lib r c q.mbps ∧ NumberAt lib r d q.txBackoff) rs raws ↔
        (∀ r ∈ rs, r.length = 4) ∧ rs.mapM (rateRow lib a b c d) = .ok raws) := by
    intro rs raws a b c d ha hb hc hd
    rw [mapM_iff]
    constructor
    · intro h
      induction h with
      | nil => exact ⟨by simp, .nil⟩
      | cons h1 _ ih =>
        refine ⟨by simpa using ⟨h1.1, ih.1⟩, .cons ((rateRow_iff lib h1.1 ha hb hc hd _).2 h1.2) ih.2⟩
    · rintro ⟨h1, h2⟩
      induction h2 with
      | nil => exact .nil
      | cons h3 _ ih =>
        rename_i r _ _ _ _
        have hr : r.length = 4 := h1 r (by simp)
        exact .cons ⟨hr, (rateRow_iff lib hr ha hb hc hd _).1 h3⟩ (ih fun r hr => h1 r (by simp [hr]))
  constructor
  · intro h
    split at h
    · rename_i hlen
      split at h
      · rename_i a b c d e1 e2 e3 e4
        split at h
        · cases h
        · rename_i hne
          cases hm : rs.mapM (rateRow lib a b c d) with
          | error e => rw [hm] at h; cases h
          | ok raws =>
            rw [hm] at h
            obtain ⟨l1, o1⟩ := (columns_iff' _ _ _).1 e1
            obtain ⟨l2, o2⟩ := (columns_iff' _ _ _).1 e2
            obtain ⟨l3, o3⟩ := (columns_iff' _ _ _).1 e3
            obtain ⟨l4, o4⟩ := (columns_iff' _ _ _).1 e4
            rw [hlen.1] at l1 l2 l3 l4
            refine ⟨raws, hlen.1, ⟨a, b, c, d, l1, l2, l3, l4, ?_, o1, o2, o3, o4, ?_⟩, h⟩
            · simp
              tauto
            · exact (hall rs raws a b c d l1 l2 l3 l4).2 ⟨hlen.2, hm⟩
      · cases h
    · cases h
  · rintro ⟨raws, hlen, ⟨a, b, c, d, l1, l2, l3, l4, hnd, o1, o2, o3, o4, hf⟩, ht⟩
    obtain ⟨hr, hm⟩ := (hall rs raws a b c d l1 l2 l3 l4).1 hf
    rw [if_pos ⟨hlen, hr⟩]
    rw [(columns_iff' names "mcs" a).2 ⟨by omega, o1⟩, (columns_iff' names "snr" b).2 ⟨by omega, o2⟩,
      (columns_iff' names "mbps" c).2 ⟨by omega, o3⟩, (columns_iff' names "tx_backoff" d).2 ⟨by omega, o4⟩]
    dsimp only
    rw [if_neg (by simp at hnd; tauto), hm]
    exact ht

theorem only_append {names : List String} {key : String} {i : ℕ} (hi : i < names.length)
    (hk : ¬ key.toList <:+: "tx_backoff".toList) : Only (names ++ ["tx_backoff"]) key i ↔ Only names key i := by
  constructor
  · intro h j n hn
    have := (List.getElem?_eq_some_iff.1 hn).1
    exact h j n (by rw [List.getElem?_append_left this, hn])
  · intro h j n hn
    by_cases hj : j < names.length
    · exact h j n (by rwa [List.getElem?_append_left hj] at hn)
    · rw [List.getElem?_append_right (by omega)] at hn
      have : n = "tx_backoff" := by
        have := List.mem_of_getElem? hn
        simpa using this
      rw [this]
      exact ⟨fun h => absurd h hk, fun h => by omega⟩

theorem only_last {names : List String} {i : ℕ} : Only (names ++ ["tx_backoff"]) "tx_backoff" i ↔
    i = names.length ∧ ∀ n ∈ names, ¬ "tx_backoff".toList <:+: n.toList := by
  constructor
  · intro h
    have h1 : names.length = i := (h names.length "tx_backoff" (by simp)).1 (List.infix_refl _)
    refine ⟨h1.symm, fun n hn hk => ?_⟩
    obtain ⟨j, hj, e⟩ := List.getElem_of_mem hn
    have := (h j n (by rw [List.getElem?_append_left hj, List.getElem?_eq_getElem hj, e])).1 hk
    omega
  · rintro ⟨rfl, h⟩ j n hn
    by_cases hj : j < names.length
    · rw [List.getElem?_append_left hj] at hn
      exact ⟨fun hk => absurd hk (h n (List.mem_of_getElem? hn)), fun h => by omega⟩
    · have hlt := (List.getElem?_eq_some_iff.1 hn).1
      rw [List.length_append] at hlt
      rw [List.getElem?_append_right (by omega)] at hn
      have : n = "tx_backoff" := by
        have := List.mem_of_getElem? hn
        simpa using this
      rw [this]
      simp at hlt
      exact ⟨fun _ => by omega, fun _ => List.infix_refl _⟩

theorem numberAt_append {lib : Lib} {r : List String} {i : ℕ} {x : ℚ} (hi : i < r.length) :
    NumberAt lib (r ++ ["0"]) i x ↔ NumberAt lib r i x := by
  unfold NumberAt
  rw [List.getElem?_append_left hi]

theorem numberAt_last {lib : Lib} (h0 : lib.float "0" = some 0) {r : List String} {x : ℚ} :
    NumberAt lib (r ++ ["0"]) r.length x ↔ x = 0 := by
  unfold NumberAt
  simp [h0, eq_comm]

/-- **C149.** A rate table is read exactly if its header has, besides an optional column that is called `tx_backoff`, one
column for each of `mcs`, `snr` and `mbps`, each row has a number in each column, and the numbers pass the checks of
C31; the table then has the numbers of the file, with back-off 0 if there is no such column. -/
theorem C149_rates_partial (lib : Lib) (h0 : lib.float "0" = some 0) (p : SectorParams) (header : List String)
    (rows : List (List String)) (tbl : List McsRow) :
    readRates lib p (header :: rows) = .ok tbl ↔
      ∃ raws, (FourColumns lib header rows raws ∨ ThreeColumns lib header rows raws) ∧
        readRateTable p raws = .ok tbl := by
  rw [readRates_core]
  refine exists_congr fun raws => ?_
  rw [← and_assoc]
  refine and_congr_left fun _ => ?_
  by_cases ht : "tx_backoff" ∈ header.map lib.norm
  · have hw : withBackoff lib header rows = (header.map lib.norm, rows) := if_pos ht
    rw [hw]
    constructor
    · rintro ⟨h1, h2⟩
      exact .inl ⟨by simpa using h1, ht, h2⟩
    · rintro (⟨h1, _, h2⟩ | ⟨_, h2, _⟩)
      · exact ⟨by simpa using h1, h2⟩
      · exact absurd (List.infix_refl _) (h2 _ ht)
  · have hw : withBackoff lib header rows = (header.map lib.norm ++ ["tx_backoff"], rows.map (· ++ ["0"])) := if_neg ht
    rw [hw]
    dsimp only
    have k1 : ¬ "mcs".toList <:+: "tx_backoff".toList := by decide +kernel
    have k2 : ¬ "snr".toList <:+: "tx_backoff".toList := by decide +kernel
    have k3 : ¬ "mbps".toList <:+: "tx_backoff".toList := by decide +kernel
    have hrow : ∀ (a b c : ℕ), a < 3 → b < 3 → c < 3 → ∀ (r : List String) (q : RawRow),
        ((r ++ ["0"]).length = 4 ∧ NumberAt lib (r ++ ["0"]) a q.mcs ∧ NumberAt lib (r ++ ["0"]) b q.snr ∧
          NumberAt lib (r ++ ["0"]) c q.mbps ∧ NumberAt lib (r ++ ["0"]) 3 q.txBackoff) ↔
        (r.length = 3 ∧ NumberAt lib r a q.mcs ∧ NumberAt lib r b q.snr ∧ NumberAt lib r c q.mbps ∧ q.txBackoff = 0) := by
      intro a b c ha hb hc r q
      have hl : (r ++ ["0"]).length = 4 ↔ r.length = 3 := by simp
      rw [hl]
      refine and_congr_right fun h3 => ?_
      rw [numberAt_append (by omega), numberAt_append (by omega), numberAt_append (by omega)]
      conv_lhs => rw [← h3]
      rw [numberAt_last h0]
    constructor
    · rintro ⟨h1, a, b, c, d, l1, l2, l3, l4, hnd, o1, o2, o3, o4, hf⟩
      have hl : header.length = 3 := by simpa using h1
      obtain ⟨hd, hno⟩ := only_last.1 o4
      rw [List.length_map, hl] at hd
      subst hd
      simp only [List.nodup_cons, List.mem_cons, List.not_mem_nil, not_or, or_false] at hnd
      have m1 : a < 3 := by omega
      have m2 : b < 3 := by omega
      have m3 : c < 3 := by omega
      have hm : ∀ i, i < 3 → i < (header.map lib.norm).length := fun i hi => by rw [List.length_map, hl]; exact hi
      refine .inr ⟨hl, hno, a, b, c, m1, m2, m3, by simp; omega, (only_append (hm a m1) k1).1 o1,
        (only_append (hm b m2) k2).1 o2, (only_append (hm c m3) k3).1 o3, ?_⟩
      rw [List.forall₂_map_left_iff] at hf
      exact hf.imp fun r q h => (hrow a b c m1 m2 m3 r q).1 h
    · rintro (⟨_, h, _⟩ | ⟨hl, hno, a, b, c, m1, m2, m3, hnd, o1, o2, o3, hf⟩)
      · exact absurd h ht
      · have hm : ∀ i, i < 3 → i < (header.map lib.norm).length := fun i hi => by rw [List.length_map, hl]; exact hi
        simp only [List.nodup_cons, List.mem_cons, List.not_mem_nil, not_or, or_false] at hnd
        refine ⟨by simp [hl], a, b, c, 3, by omega, by omega, by omega, by omega, by simp; omega,
          (only_append (hm a m1) k1).2 o1, (only_append (hm b m2) k2).2 o2, (only_append (hm c m3) k3).2 o3,
          only_last.2 ⟨by simp [hl], hno⟩, ?_⟩
        rw [List.forall₂_map_left_iff]
        exact hf.imp fun r q h => (hrow a b c m1 m2 m3 r q).2 h

/-- A table in another column order and without the back-off. -/
def demoRates : List (List String) := [["SNR (dB)", "MCS", "Mbps"], ["0", "10", "0"], ["10", "30", "30"]]

theorem demoRates_three : ThreeColumns demoLib ["SNR (dB)", "MCS", "Mbps"] [["0", "10", "0"], ["10", "30", "30"]]
    [⟨10, 0, 0, 0⟩, ⟨30, 10, 30, 0⟩] := by
  have ho : ∀ key i, (∀ j < 3, (key.toList <:+: ((["SNR (dB)", "MCS", "Mbps"].map demoLib.norm)[j]?.getD "").toList ↔
      j = i)) → Only (["SNR (dB)", "MCS", "Mbps"].map demoLib.norm) key i := by
    intro key i h j n hn
    have hj : j < 3 := (List.getElem?_eq_some_iff.1 hn).1
    have := h j hj
    rw [hn] at this
    exact this
  refine ⟨rfl, by decide +kernel, 1, 0, 2, by decide, by decide, by decide, by decide, ho _ _ (by decide +kernel),
    ho _ _ (by decide +kernel), ho _ _ (by decide +kernel), ?_⟩
  refine .cons ⟨rfl, ⟨"10", rfl, by decide +kernel⟩, ⟨"0", rfl, by decide +kernel⟩, ⟨"0", rfl, by decide +kernel⟩, rfl⟩
    (.cons ⟨rfl, ⟨"30", rfl, by decide +kernel⟩, ⟨"10", rfl, by decide +kernel⟩, ⟨"30", rfl, by decide +kernel⟩, rfl⟩ .nil)

theorem demoRates_read : readRates demoLib { maximumTxPower := 16 } demoRates = .ok [⟨10, 0, 0, 0⟩, ⟨30, 10, 30, 0⟩] :=
  (C149_rates_partial demoLib (by decide +kernel) _ _ _ _).2 ⟨_, .inr demoRates_three,
    (C31_accepted_iff _ _ _).2 ⟨by decide +kernel, by decide +kernel, by decide +kernel⟩⟩

/-- **C149 is false of the code:** a blank line, such as one at the end, makes every file unreadable. -/
theorem C149_blank_violation :
    (∀ lib p header before after, readRates lib p (header :: (before ++ [] :: after)) = .error .data) ∧
    ∃ tbl, readRates demoLib { maximumTxPower := 16 } demoRates = .ok tbl := by
  refine ⟨fun lib p header before after => ?_, _, demoRates_read⟩
  unfold readRates withBackoff
  dsimp only
  split
  · dsimp only
    rw [if_neg]
    rintro ⟨_, h⟩
    exact absurd (h [] (by simp)) (by simp)
  · dsimp only
    rw [if_neg]
    rintro ⟨_, h⟩
    exact absurd (h ["0"] (by simp)) (by simp)

/-- **C149 is false of the code:** the names of the columns may have additions, as in `SNR (dB)`, but with an addition to
the name of the column of the back-offs the file is rejected. -/
theorem C149_unit_violation :
    (∀ lib p header rows, "tx_backoff" ∉ header.map lib.norm →
      (∃ n ∈ header.map lib.norm, "tx_backoff".toList <:+: n.toList) → readRates lib p (header :: rows) = .error .data) ∧
    "tx_backoff" ∉ ["MCS", "SNR (dB)", "Mbps", "tx_backoff (dB)"].map demoLib.norm ∧
    ∃ n ∈ ["MCS", "SNR (dB)", "Mbps", "tx_backoff (dB)"].map demoLib.norm, "tx_backoff".toList <:+: n.toList := by
  refine ⟨fun lib p header rows h1 h2 => ?_, by decide +kernel, by decide +kernel⟩
  have hno : ∀ i, columns (header.map lib.norm ++ ["tx_backoff"]) "tx_backoff" ≠ [i] := by
    intro i h
    obtain ⟨n, hn, hk⟩ := h2
    exact (only_last.1 ((columns_iff' _ _ _).1 h).2).2 n hn hk
  unfold readRates withBackoff
  dsimp only
  rw [if_neg h1]
  dsimp only
  split
  · split
    · rename_i h
      exact absurd h (hno _)
    · rfl
  · rfl

end RadioFiles
end Verif
