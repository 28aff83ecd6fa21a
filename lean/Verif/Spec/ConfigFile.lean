import Verif.Model.ConfigFile
import Verif.Spec.ConfigDict

/-!
# Words for the statements about configuration files
-/

namespace Verif

/-- The dictionary gives the parameter `n` of class `c` the value `x`: at the top level, or one level below a key that is no
parameter itself (as `FINANCIAL`), in whatever case. -/
inductive Given (env : CfgEnv) (c : Cls) (d : Dict String PyVal) (n : String) : PyVal → Prop
  | top (k : String) (x : PyVal) : (k, x) ∈ d → env.fold k = n → Given env c d n x
  | sub (k : String) (s : List (String × PyVal)) (j : String) (x : PyVal) : (k, .dict s) ∈ d → env.fold k ∉ c.args →
      (j, x) ∈ s → env.fold j = n → Given env c d n x

/-- A plain number or string, maybe optional. -/
def Kind.scalar : Kind → Prop
  | .num => True
  | .num? => True
  | .str => True
  | .str? => True
  | _ => False

/-- The keys of the file, at all depths where the template has keys, are keys of the template at the same place, up to case
and surrounding blanks; a dictionary stands only where the template has one, a list only where it has a list or a string. -/
inductive Conforms (env : CfgEnv) (strip : String → String) : PyVal → PyVal → Prop
  | none (t : PyVal) : Conforms env strip .none t
  | num (q : ℚ) (t : PyVal) : Conforms env strip (.num q) t
  | str (s : String) (t : PyVal) : Conforms env strip (.str s) t
  | dict (d o : List (String × PyVal)) (entry : String × PyVal → String × PyVal) : (∀ e ∈ d, entry e ∈ o) →
      (∀ e ∈ d, env.fold (strip e.1) = env.fold (entry e).1) → (∀ e ∈ d, Conforms env strip e.2 (entry e).2) →
      Conforms env strip (.dict d) (.dict o)
  | dicts (ds : List (List (String × PyVal))) (o : List (String × PyVal)) (ts : List PyVal) :
      (∀ d ∈ ds, Conforms env strip (.dict d) (.dict o)) →
      Conforms env strip (.list (ds.map PyVal.dict)) (.list (.dict o :: ts))
  | list (xs : List PyVal) (t : PyVal) (ts : List PyVal) : (∀ o, t ≠ .dict o) → Conforms env strip (.list xs) (.list (t :: ts))
  | single (xs : List PyVal) (s : String) : s ≠ "" → Conforms env strip (.list xs) (.str s)

/-- A value that a parser of YAML or JSON returns. -/
inductive Parsed : PyVal → Prop
  | none : Parsed .none
  | num (q : ℚ) : Parsed (.num q)
  | str (s : String) : Parsed (.str s)
  | list (xs : List PyVal) : (∀ x ∈ xs, Parsed x) → Parsed (.list xs)
  | dict (d : List (String × PyVal)) : (∀ e ∈ d, Parsed e.2) → Parsed (.dict d)

/-- No two keys of a dictionary in the template are the same without regard to case. -/
inductive Distinct (env : CfgEnv) : PyVal → Prop
  | none : Distinct env .none
  | num (q : ℚ) : Distinct env (.num q)
  | str (s : String) : Distinct env (.str s)
  | list (xs : List PyVal) : (∀ x ∈ xs, Distinct env x) → Distinct env (.list xs)
  | dict (d : List (String × PyVal)) : (d.map fun e => env.fold e.1).Nodup → (∀ e ∈ d, Distinct env e.2) →
      Distinct env (.dict d)

/-- Small letters. -/
def lowerAscii (s : String) : String := String.ofList (s.toList.map Char.toLower)

/-- `str.casefold` of names in capital letters and underscores. -/
def CfgEnv.Lower (env : CfgEnv) : Prop :=
  ∀ s : String, (s.toList.all fun c => c == '_' || c.isUpper) = true → env.fold s = lowerAscii s

/-- The template shows `x` for the parameter `p`: its default value, the name of it if it is the member of an enum, or an
example of a file name or SKU. -/
def Documents (x : PyVal) (p : Param) : Prop :=
  p.default = some x ∨ (∃ e n, x = .str n ∧ p.default = some (.enum e n)) ∨
  ((p.kind = .str ∨ p.kind = .str?) ∧ (∃ s, x = .str s) ∧ (p.default = none ∨ p.default = some .none)) ∨
  (p.name = "number_of_nodes_per_site" ∧ x = .num 4) ∨ ((∃ d, x = .dict d) ∧ ∃ c, p.kind = .obj c) ∨
  ((∃ l, x = .list l) ∧ (p.kind = .devices ∨ p.kind = .paths?))

/-- The dictionaries of the template with the classes whose parameters they show. -/
def shown : List (Cls × List (String × PyVal)) :=
  [(.system, tplSystem), (.gis, tplData), (.los, tplLineOfSight), (.los, tplRadio), (.detection, tplSiteDetection),
   (.opt, tplRadio), (.opt, tplNetworkDesign.filter fun e => e.1 != "FINANCIAL" && e.1 != "DIMENSIONING"),
   (.opt, tplFinancial), (.opt, tplDimensioning), (.device, tplDeviceList), (.sector, tplSectorParams)]

/-- The class of an object and the sections of the file with its settings. -/
def ObjName.cls : ObjName → Cls
  | .system => .system
  | .lineOfSight => .los
  | .optimization => .opt
  | .data => .gis

/-- The sections with the settings of an object. -/
def ObjName.sections : ObjName → List String
  | .system => ["SYSTEM"]
  | .lineOfSight => ["LINE_OF_SIGHT", "RADIO"]
  | .optimization => ["RADIO", "NETWORK_DESIGN"]
  | .data => ["DATA"]

/-- The entries of a section of the file. -/
def entriesOf (data : Dict String PyVal) (sec : String) : List (String × PyVal) :=
  match data.get? sec with
  | some (.dict d) => d
  | _ => []

/-- The entries of the sections of an object. -/
def topSettings (obj : ObjName) (data : Dict String PyVal) : List (String × PyVal) :=
  obj.sections.flatMap (entriesOf data)

/-- The settings below keys that are no parameters themselves. -/
def subSettings (env : CfgEnv) (obj : ObjName) (data : Dict String PyVal) : List (String × PyVal) :=
  (topSettings obj data).flatMap fun e =>
    match e.2 with
    | .dict s => if env.fold e.1 ∈ obj.cls.args then [] else s
    | _ => []

/-- The settings of an object in the file. -/
def settings (env : CfgEnv) (obj : ObjName) (data : Dict String PyVal) : List (String × PyVal) :=
  topSettings obj data ++ subSettings env obj data

/-- `str.strip` leaves names in capital letters and underscores alone. -/
def KeepsNames (strip : String → String) : Prop :=
  ∀ s : String, (s.toList.all fun c => c == '_' || c.isUpper) = true → strip s = s

end Verif
