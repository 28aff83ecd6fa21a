import Verif.Model.InputSites

/-! # What loading sites and links should do -/

namespace Verif

/-- The list without the elements whose key occurred before. -/
def keepFirst {α κ : Type} [DecidableEq κ] (key : α → κ) : List α → List α
  | [] => []
  | x :: rest => x :: (keepFirst key rest).filter (fun y => key y ≠ key x)

/-- Another site of the list has the same name but another device. -/
def Shared (fold : String → String) (xs : List NamedSite) (x : NamedSite) : Prop :=
  ∃ y ∈ xs, y.name = x.name ∧ fold y.site.device.sku ≠ fold x.site.device.sku

/-- Two sites of the list with the same name and device that differ otherwise. -/
def Clash (fold : String → String) (xs : List NamedSite) : Prop :=
  ∃ x ∈ xs, ∃ y ∈ xs, y.name = x.name ∧ fold y.site.device.sku = fold x.site.device.sku ∧
    (y.site.lat ≠ x.site.lat ∨ y.site.lon ≠ x.site.lon ∨ y.site.alt ≠ x.site.alt ∨
      y.site.siteType ≠ x.site.siteType ∨ y.loc ≠ x.loc)

/-- No name that comes about by appending a device to a shared name is a name of the list, or comes about in
another way. -/
structure ClearNames (fold : String → String) (xs : List NamedSite) : Prop where
  given : ∀ x ∈ xs, ∀ y ∈ xs, Shared fold xs y → x.name ≠ y.name ++ "_" ++ fold y.site.device.sku
  long : ∀ x ∈ xs, ∀ y ∈ xs, Shared fold xs x → Shared fold xs y →
    x.name ++ "_" ++ fold x.site.device.sku = y.name ++ "_" ++ fold y.site.device.sku → x.name = y.name

end Verif

namespace Verif

/-- The link that a request for a link between two sites should yield, `raw` as read from a KML file. -/
def requestedLink (tx rx : Site) (raw : Option RawAttr) : Link :=
  match raw with
  | none => { tx := tx.id, rx := rx.id }
  | some r => { tx := tx.id, rx := rx.id, isWireless := r.isWireless, status := r.status, confidence := r.confidence }

end Verif
