import Verif.Model.ConfigDict

/-!
# Words for the statements about configuration objects
-/

namespace Verif

/-- `str.casefold` keeps names in small letters and underscores, `str.upper` names in capital letters and underscores. -/
structure CfgEnv.Case (env : CfgEnv) : Prop where
  fold : ∀ s : String, (s.toList.all fun c => c == '_' || c.isLower) = true → env.fold s = s
  upper : ∀ s : String, (s.toList.all fun c => c == '_' || c.isUpper) = true → env.upper s = s

/-- `x` is a value of the annotated type. An object is one that its constructor has returned for keyword arguments of
the annotated types. -/
inductive HasKind (env : CfgEnv) : Kind → PyVal → Prop
  | num (q : ℚ) : HasKind env .num (.num q)
  | numNone : HasKind env .num? .none
  | numSome (q : ℚ) : HasKind env .num? (.num q)
  | str (s : String) : HasKind env .str (.str s)
  | strNone : HasKind env .str? .none
  | strSome (s : String) : HasKind env .str? (.str s)
  | enum (e : EnumCls) (n : String) (q : ℚ) : (n, q) ∈ e.members → HasKind env (.enum e) (.enum e n)
  | enumNone (e : EnumCls) : HasKind env (.enum? e) .none
  | enumSome (e : EnumCls) (n : String) (q : ℚ) : (n, q) ∈ e.members → HasKind env (.enum? e) (.enum e n)
  | paths (xs : List PyVal) : (∀ x ∈ xs, HasKind env .str? x) → HasKind env .paths? (.list xs)
  | pathsNone : HasKind env .paths? .none
  | devices (xs : List PyVal) : (∀ x ∈ xs, HasKind env (.obj .device) x) → HasKind env .devices (.list xs)
  | obj (c : Cls) (kw : Dict String PyVal) (o : PyVal) :
      (∀ p ∈ c.params, ∀ x, kw.get? p.name = some x → HasKind env p.kind x) →
      c.make env kw = .ok o → HasKind env (.obj c) o

/-- `getattr(o, n)`. -/
def PyVal.attr (o : PyVal) (n : String) : Option PyVal :=
  match o with
  | .obj _ a => Dict.get? a n
  | _ => Option.none

/-- The attribute if it is a number. -/
def PyVal.number (o : PyVal) (n : String) : Option ℚ :=
  match o.attr n with
  | some (.num q) => some q
  | _ => Option.none

/-- The numbers that an object hands down to the sectors of its devices are such as `SectorParams` accepts. -/
structure RadioOk (o : PyVal) : Prop where
  carrier : ∀ q, o.attr "carrier_frequency" = some (.num q) → 0 < q
  noise : ∀ q, o.attr "noise_figure" = some (.num q) → 0 ≤ q
  rain : ∀ q, o.attr "rain_rate" = some (.num q) → 0 ≤ q
  avail : ∀ q, o.attr "link_availability_percentage" = some (.num q) → 0 ≤ q ∧ q ≤ 100

end Verif
