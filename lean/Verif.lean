import Verif.Base
import Verif.Model.Enums
import Verif.Model.Topology
import Verif.Spec.Topology
import Verif.Lemmas.Topology
import Verif.Props.Topology
import Verif.Model.Ids
import Verif.Props.Sort
import Verif.Model.Status
import Verif.Model.History
import Verif.Props.Status
import Verif.Model.Hops
import Verif.Spec.Hops
import Verif.Props.Hops
import Verif.Props.Mark
import Verif.Model.Solution
import Verif.Model.Ignore
import Verif.Lemmas.Solution
import Verif.Props.Solution
import Verif.Props.Ignore
import Verif.Model.Capex
import Verif.Props.Capex
import Verif.Props.PopCapacity
import Verif.Props.SameNode
import Verif.Model.GeoHash
import Verif.Props.GeoHash
import Verif.Model.Counter
import Verif.Props.Counter
import Verif.Props.Counter2
import Verif.Model.Rf
import Verif.Model.Angles
import Verif.Spec.Rf
import Verif.Lemmas.Rf
import Verif.Props.Rf
import Verif.Props.LosRange
import Verif.Props.RateTable
import Verif.Spec.Angles
import Verif.Props.Angles
import Verif.Spec.Deploy
import Verif.Props.Deploy
import Verif.Props.SectorLimit
import Verif.Model.Prepare
import Verif.Spec.Prepare
import Verif.Props.Prepare
import Verif.Model.Demand
import Verif.Spec.Demand
import Verif.Props.Demand
import Verif.Props.Colocate
import Verif.Props.AddDemand
import Verif.Model.Elevation
import Verif.Props.Elevation
import Verif.Model.Ilp
import Verif.Lemmas.Ilp
import Verif.Lemmas.IlpCheck
import Verif.Lemmas.IlpDemo
import Verif.Spec.Ilp
import Verif.Props.Ilp
import Verif.Props.Ilp2
import Verif.Props.Ilp3
import Verif.Model.Extract
import Verif.Spec.Extract
import Verif.Props.Extract
import Verif.Props.Extract2
import Verif.Props.Extract3
import Verif.Props.Apply
import Verif.Props.Apply2
import Verif.Model.Prune
import Verif.Spec.Prune
import Verif.Props.Prune
import Verif.Props.Prune2
import Verif.Model.Phases
import Verif.Props.Phases
import Verif.Props.Extract4
import Verif.Model.MaxFlow
import Verif.Props.MaxFlow
import Verif.Model.Connected
import Verif.Props.Connected
import Verif.Props.Connected2
import Verif.Model.Interf
import Verif.Spec.Interf
import Verif.Lemmas.InterfCheck
import Verif.Props.Interf
import Verif.Props.Interf2
import Verif.Props.Interf3
import Verif.Model.InterfExtract
import Verif.Props.Interf4
import Verif.Props.Interf5
import Verif.Props.NextPhase
import Verif.Model.Redundancy
import Verif.Spec.Redundancy
import Verif.Lemmas.RedCheck
import Verif.Props.Redundancy
import Verif.Model.RedPool
import Verif.Spec.RedPool
import Verif.Props.Redundancy2
import Verif.Props.Redundancy3
import Verif.Props.Redundancy4
import Verif.Props.RedPool
import Verif.Props.RedPool2
import Verif.Model.Nx
import Verif.Model.NxReport
import Verif.Spec.Nx
import Verif.Lemmas.Nx
import Verif.Lemmas.Nx2
import Verif.Lemmas.NxPaths
import Verif.Lemmas.NxLoop
import Verif.Props.Nx
import Verif.Props.NxReport
import Verif.Props.NxReport2
import Verif.Model.Availability
import Verif.Spec.Availability
import Verif.Lemmas.Availability
import Verif.Lemmas.Availability2
import Verif.Props.Availability
import Verif.Props.Availability2
import Verif.Model.Adversarial
import Verif.Spec.Adversarial
import Verif.Lemmas.Adversarial
import Verif.Props.Adversarial
import Verif.Props.Adversarial2
import Verif.Model.InputSites
import Verif.Spec.InputSites
import Verif.Lemmas.InputSites
import Verif.Lemmas.InputLinks
import Verif.Props.InputSites
import Verif.Props.InputLinks
import Verif.Props.InputLinks2
import Verif.Model.Config
import Verif.Props.Config
import Verif.Model.Los
import Verif.Model.LosGeom
import Verif.Model.LosBuild
import Verif.Model.LosPick
import Verif.Props.Los
import Verif.Props.LosStatus
import Verif.Props.LosSelect
import Verif.Props.LosGeom
import Verif.Props.LosConf
import Verif.Props.LosBuild
import Verif.Props.LosPick
import Verif.Model.LosInput
import Verif.Props.LosInput
import Verif.Model.Fresnel
import Verif.Props.Fresnel
import Verif.Model.PopProposal
import Verif.Props.PopProposal
import Verif.Props.PopCopy
import Verif.Props.Setup
import Verif.Model.ConfigDict
import Verif.Spec.ConfigDict
import Verif.Props.ConfigDict
import Verif.Model.ConfigFile
import Verif.Spec.ConfigFile
import Verif.Props.ConfigFile
import Verif.Spec.ConfigRange
import Verif.Props.ConfigRange
import Verif.Model.Sinr
import Verif.Spec.Sinr
import Verif.Lemmas.Sinr
import Verif.Lemmas.Sinr2
import Verif.Lemmas.PowerControl
import Verif.Props.Sinr
import Verif.Props.PowerControl
import Verif.Model.Routing
import Verif.Spec.Routing
import Verif.Lemmas.Routing
import Verif.Lemmas.Zones
import Verif.Props.Routing
import Verif.Model.Metrics
import Verif.Spec.Metrics
import Verif.Props.Metrics
import Verif.Model.Statistics
import Verif.Spec.Statistics
import Verif.Lemmas.Statistics
import Verif.Lemmas.SectorLinks
import Verif.Lemmas.Percentile
import Verif.Props.Statistics
import Verif.Props.Statistics2
import Verif.Model.Orient
import Verif.Spec.Orient
import Verif.Lemmas.Orient
import Verif.Lemmas.OrientGeom
import Verif.Lemmas.OrientMetric
import Verif.Lemmas.OrientCost
import Verif.Props.Orient
import Verif.Props.Orient2
import Verif.Model.Create
import Verif.Spec.Create
import Verif.Lemmas.Create
import Verif.Lemmas.CreateGeom
import Verif.Lemmas.CreateMean
import Verif.Lemmas.CreateLoop
import Verif.Props.Create
import Verif.Props.Create2
import Verif.Props.Create3
import Verif.Props.Create4
import Verif.Model.Geos
import Verif.Spec.Geos
import Verif.Lemmas.Geos
import Verif.Lemmas.GeosBearing
import Verif.Lemmas.GeosHinge
import Verif.Props.Geos
import Verif.Props.Geos2
import Verif.Props.Geos3
import Verif.Props.Geos4
import Verif.Model.Tables
import Verif.Spec.Tables
import Verif.Lemmas.Tables
import Verif.Props.Tables
import Verif.Props.Tables2
import Verif.Props.Tables3
import Verif.Props.Tables4
import Verif.Model.Kml
import Verif.Spec.Kml
import Verif.Lemmas.Kml
import Verif.Lemmas.Kml2
import Verif.Props.Kml
import Verif.Props.Kml2
import Verif.Props.Kml3
import Verif.Props.Kml4
import Verif.Props.Kml5
import Verif.Model.Csv
import Verif.Spec.Csv
import Verif.Props.Csv
import Verif.Props.Csv2
import Verif.Props.Csv3
import Verif.Props.Csv4
import Verif.Model.LinkBudget
import Verif.Lemmas.LinkBudget
import Verif.Props.LinkBudget
import Verif.Props.LinkBudget2
import Verif.Model.RadioFiles
import Verif.Props.RadioFiles
import Verif.Model.GisData
import Verif.Props.GisData
import Verif.Props.GisData2
import Verif.Lemmas.SortBy
import Verif.Spec.Pipeline
import Verif.Lemmas.Via
import Verif.Lemmas.Via2
import Verif.Model.Pipeline
import Verif.Props.Pipeline
import Verif.Lemmas.Via3
import Verif.Lemmas.RunDemo
import Verif.Props.Pipeline2
import Verif.Props.Pipeline3
import Verif.Spec.LinkBudget
import Verif.Props.LinkBudget3
import Verif.Lemmas.Kin
import Verif.Lemmas.DetourDemo
import Verif.Props.Pipeline4
import Verif.Model.LosRun
import Verif.Props.LosRun
import Verif.Model.Whole
import Verif.Props.Whole
import Verif.Lemmas.WholeDemo
import Verif.Model.TopologyFile
import Verif.Props.TopologyFile
import Verif.Props.LosRun2
import Verif.Model.Exclusion
import Verif.Props.Exclusion
import Verif.Model.GeoLocation
import Verif.Props.GeoLocation
import Verif.Props.GisData3
import Verif.Model.RedSolve
import Verif.Props.RedSolve
import Verif.Props.RedStep
import Verif.Props.CoverageStep
import Verif.Model.Optimum
import Verif.Props.Optimum
import Verif.Props.Optimum2
import Verif.Props.ExtraPops
import Verif.Model.Common
import Verif.Props.Common
import Verif.Model.WorstCase
import Verif.Props.WorstCase
import Verif.Model.InterfBest
import Verif.Props.InterfBest
import Verif.Props.LosModel
import Verif.Props.Budget
import Verif.Model.ConnInterf
import Verif.Props.ConnInterf
import Verif.Model.FlowExtract
import Verif.Props.FlowExtract
import Verif.Model.InterfCommon
import Verif.Props.InterfCommon
import Verif.Model.CallerParams
import Verif.Props.CallerParams
import Verif.Model.UserInput
import Verif.Props.UserInput
import Verif.Model.Queries
import Verif.Props.Queries
import Verif.Props.Unused
import Verif.Props.RedCost
