import Verif.Model.Kml
import Verif.Model.LosInput

/-!
# Sites that the user asks for: `common/data_io/input_sites_loader.py`

The rows of the file are given; reading them is in `Verif.Model.Kml` and `Verif.Model.Csv`.
-/

namespace Verif
namespace Kml

/-- `_construct_sites`, `input_sites_loader.py:132-204`, with `infer_input_site_location`, whose result (altitude and
location type, see `inferLocation`) is `infer`; latitude and longitude are those of the row (`los/helper.py:146-200`).
The building is `UNKNOWN_BUILDING_ID` on roofs and none elsewhere, whatever the row says; 0 stands for it while the site is
constructed. -/
def Loader.userSites (L : Loader) (infer : RawSite → Option ℚ × LocationType) (r : RawSite) :
    Except Err (List NamedSite) :=
  let q := infer r
  let roof := decide (q.2 = .rooftop)
  match L.sites { r with alt := q.1, loc := q.2, building := if roof then some 0 else none } with
  | .error e => .error e
  | .ok xs => .ok (xs.map fun x => { x with site := { x.site with building := if roof then some (-1) else none } })

/-- `prepared_boundary.contains(Point(...))` or no boundary, `input_sites_loader.py:105-110`. -/
def inside (boundary : Option (ℚ → ℚ → Bool)) (r : RawSite) : Bool :=
  match boundary with
  | none => true
  | some b => b r.lon r.lat

/-- `get_input_sites`, `input_sites_loader.py:84-130`. The sites are constructed and added one after the other; here all
are constructed first, so that only which of several exceptions is raised may differ. -/
def Loader.userInput (L : Loader) (infer : RawSite → Option ℚ × LocationType) (boundary : Option (ℚ → ℚ → Bool))
    (rows : List RawSite) : Except Err InputSites :=
  match (rows.filter (inside boundary)).mapM (L.userSites infer) with
  | .error e => .error e
  | .ok xs => ({} : InputSites).load L.fold xs.flatten

/-- `partial_infer_input_site_location`, `los/helper.py:252-260`, on a row; `utm` gives `utm_x` and `utm_y` of longitude and
latitude. -/
def inferRow (C : InferCfg) (utm : ℚ → ℚ → ℚ × ℚ) (r : RawSite) : Option ℚ × LocationType :=
  inferLocation C ⟨(utm r.lon r.lat).1, (utm r.lon r.lat).2, r.alt, r.height, r.loc, r.typ⟩

end Kml
end Verif
