import Verif.Model.Sinr

/-!
# The interference assumed by the optimizer

`compute_link_interference` (`optimization/topology_interference.py:34-81`) and its use in the constructor of
`MinInterferenceNetwork` (`ilp_models/interference_optimization.py:91-99`). Geometry, antenna patterns and
conversions are the parameters of `Sinr.RadioEnv`.
-/

namespace Verif
namespace Sinr

/-- The value for one link, `topology_interference.py:43-80`. `get_max_tx_power` is called as in
`topology_operations.py:546-551`, so that its value is `maxTx`. Either both sectors of a link are set or none. -/
def worstRsl (R : RadioEnv) (l : Link) : Db :=
  if !l.isWireless then .off
  else match l.sectors with
    | none => .off
    | some _ => .val (R.maxTx l.tx +
        R.pathGain l.id (R.txDev l.id) (R.rxDev l.id) (R.elDev l.id) (-(R.elDev l.id)))

/-- `compute_link_interference`, `topology_interference.py:34-81`. -/
def linkInterference (t : Topology) (R : RadioEnv) : Dict (SiteId × SiteId) Db :=
  t.links.vals.foldl (fun d l => d.set (l.tx, l.rx) (worstRsl R l)) []

/-- `interfering_rsl_linear`, `interference_optimization.py:91-99`. -/
def interferingLinear (t : Topology) (R : RadioEnv) (D : Dict (SiteId × SiteId) Db) : Dict (SiteId × SiteId) ℚ :=
  t.links.vals.foldl (fun d l => d.set (l.tx, l.rx)
    (match D.get? (l.tx, l.rx) with
    | some x => R.linDb x
    | none => 0)) []

end Sinr
end Verif
