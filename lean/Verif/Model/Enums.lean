import Mathlib.Tactic.Common

/-! # Enumerations of `common/configuration/enums.py` -/

namespace Verif

/-- `StatusType`, `common/configuration/enums.py:111-116`. -/
inductive StatusType
  | proposed | existing | candidate | unavailable | unreachable
  deriving DecidableEq, Repr

/-- `SiteType`, `common/configuration/enums.py:101-104`. -/
inductive SiteType
  | cn | dn | pop
  deriving DecidableEq, Repr

/-- `LinkType`, `common/configuration/enums.py:50-53`. -/
inductive LinkType
  | wirelessBackhaul | wirelessAccess | ethernet
  deriving DecidableEq, Repr

/-- `PolarityType`, `common/configuration/enums.py:83-86`. -/
inductive PolarityType
  | odd | even | unassigned
  deriving DecidableEq, Repr

/-- `SectorType`, `common/configuration/enums.py:96-98`. -/
inductive SectorType
  | cn | dn
  deriving DecidableEq, Repr

/-- `DeviceType`, `common/configuration/enums.py:45-47`. -/
inductive DeviceType
  | cn | dn
  deriving DecidableEq, Repr

/-- `LocationType`, `common/configuration/enums.py:59-62`. -/
inductive LocationType
  | streetLevel | rooftop | unknown
  deriving DecidableEq, Repr

namespace StatusType

/-- `StatusType.immutable_status`, `enums.py:119-124`. -/
def immutable : StatusType → Bool
  | existing | unavailable => true
  | _ => false

/-- `StatusType.active_status`, `enums.py:127-128`. -/
def active : StatusType → Bool
  | proposed | existing => true
  | _ => false

/-- `StatusType.inactive_status`, `enums.py:131-132`. -/
def inactive : StatusType → Bool
  | unavailable | unreachable => true
  | _ => false

/-- `StatusType.reachable_status`, `enums.py:135-136`. -/
def reachable : StatusType → Bool
  | proposed | existing | candidate => true
  | _ => false

end StatusType

/-- `LinkType.is_wireless`, `enums.py:55-56`. -/
def LinkType.isWireless : LinkType → Bool
  | .ethernet => false
  | _ => true

/-- `SiteType.dist_site_types`, `enums.py:107-108`. -/
def SiteType.isDist : SiteType → Bool
  | .cn => false
  | _ => true

end Verif
