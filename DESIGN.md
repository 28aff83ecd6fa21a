# Formal model of terragraph-planner

This directory holds a Lean 4 model of the decision logic of
`terragraph/terragraph-planner` (sources in `/repo/terragraph_planner`) and
machine-checked proofs of the properties listed in `properties.jsonl`.

## Layout

* `lean/Verif/Model/*.lean` : the model. Each definition cites the file and
  lines it mirrors and names its simplifications.
* `lean/Verif/Spec/*.lean` : small independent specifications (paths, flows,
  orders, ...) that property statements use. They do not mention the model's
  helper functions.
* `lean/Verif/Lemmas/*.lean` : helper lemmas.
* `lean/Verif/Props/*.lean` : the property theorems `Cnn_*`, each with an
  `example` that a concrete non-trivial state meets its hypotheses.
* `MANIFEST.json` : property -> theorem names and status.
* `seeded/LOG.jsonl` : attempts to break the model and what failed.

## Modelling conventions

* Python `dict` (insertion ordered) is a list of key/value pairs without
  duplicate keys; `set` iteration order is unspecified, so a model that
  iterates over a set takes the order as a parameter, or the result is proved
  independent of it.
* Objects that the code mutates through shared references (sites inside links
  and sectors) are referred to by id and looked up in the store, so that a
  status change of a site is seen through each link and sector.
* Exceptions are values: `Except Err State`. Where code raises after partial
  mutation the model returns the partially mutated state beside the error.
* `float` is modelled by exact rationals (or by an arbitrary ordered field);
  rounding, NaN and infinities are outside the model unless mentioned.
* Calls out of the project (solver, GDAL, networkx graph algorithms, pyproj,
  random generators) are parameters, with the behaviour assumed of them stated
  as a hypothesis or by giving the mathematical definition.
* For the optimisation models the Lean model is the set of constraints the
  code emits, as a predicate over assignments. Theorems range over all
  feasible assignments; the solver is not trusted to be optimal, only that what
  it returns is feasible.

## Trusted base

Lean 4.33.0 kernel; the axioms `propext`, `Classical.choice`, `Quot.sound`
(printed for each theorem by `#print axioms`); the reading of the Python source
into the model. No axioms are added and no `sorry`, `native_decide`,
`bv_decide`, `implemented_by` or `unsafe` is used.

## What is modelled

| Source (`terragraph_planner/`) | Model module(s) | What is left out or simplified |
|---|---|---|
| `common/topology_models/topology.py`, `site.py`, `sector.py`, `link.py`, `demand_site.py` | Topology, Queries, Status, Ids, History (with `sort`), Enums | ids are strings, the MD5 of a site is a parameter; attributes that no modelled function reads |
| `common/geos.py` | GeoHash, Angles, Geos, GeoLocation | UTM projection (pyproj) is a parameter; the formulas of Geos are over the reals |
| `common/rf/link_budget_calculator.py` | Rf, LinkBudget | in Rf the net gain of a link and the dBm conversions are parameters; in LinkBudget path loss, rain loss and net gain are over the reals |
| `read_antenna_pattern_data`, `read_mcs_snr_mbps_map_data` of `csv_library.py` | RadioFiles | files as rows of texts as `pandas` and `csv` split them; `float`, `casefold`, `strip` are parameters |
| `extract_polygons` of `kml_library.py`, `elevation_loader.py`, `elevation_rules.py`, `shared_rules.py`, `building_group_loader.py`, `building_group_rules.py`, loading part of `los/core.py` | GisData | what GDAL, fiona and shapely read from the files; UTM zone codes, nested collections of geometries, joining of several elevation files (see Elevation) |
| `common/configuration/configs.py` (devices, sector parameters), `utils.py` (rate tables) | Config, Rf | file reading |
| `common/configuration/configs.py` (all classes: constructors, `to_dict`, `from_dict`, `__eq__`) | ConfigDict | bool, int and float are one type of number; files are parameters; objects are values, so devices shared by two lists are not changed together; sorting is modelled for the annotated types |
| `common/configuration/utils.py` (typo check, sections of a file), `data/template.yaml` | ConfigFile | the parsers of YAML and JSON and the checks of the file name are left out; keys are strings; `strip` and `casefold` are parameters |
| `common/data_io/input_sites.py`, `input_sites_loader.py`, `data_io/utils.py`, link part of `csv_library.py`, `kml_library.py` | InputSites, UserInput, LosInput, TopologyFile | parsing of the files (see Kml, Csv); search for sites near a place is a parameter |
| `los/core.py`, `los/helper.py` | Los, LosPick, LosBuild, LosRun, LosInput, Rf | process pools run in order; distance and elevation angle between sites are parameters |
| `los/base_los_validator.py`, `cylindrical_los_validator.py`, `ellipsoidal_los_validator.py`, `fresnel_zone.py` | LosGeom, Fresnel, Exclusion | over the reals; the raster query and the points of a polygon are parameters |
| `los/building.py`, `building_group.py` | LosInput, GisData | polygon predicates and intersections (shapely), angle at a vertex as parameters; `to_dhm` |
| `los/elevation.py` | Elevation | GDAL transforms; NaN only where stated |
| `optimization/topology_preparation.py` | Angles, Prepare, Orient, Create | `find_best_sectors` is modelled in Orient and `find_best_equidistant_sectors` in Create, given the bearings and distances of the neighbours; in Prepare the result of the search is a parameter; the circular mean of azimuths is a parameter (C123 assumes it is the bearing of the sum of the unit vectors) |
| `optimization/topology_demand.py` | Demand | grid points are generated by exact arithmetic |
| `optimization/topology_component_counter.py`, CAPEX and POP capacity of `topology_operations.py` | Counter, Capex | |
| `optimization/topology_operations.py` (hops, reachability, adversarial links) | Hops, Adversarial | |
| `optimization/topology_interference.py`, `update_link_caps_with_sinr` of `topology_operations.py`, `add_link_capacities` | Sinr, WorstCase | antenna patterns, deviations and the conversion between dBm and mW are parameters; floats are rationals with `-inf` and NaN |
| `optimization/ilp_models/*.py` | Ilp, Phases, Extract, Prune, MaxFlow, Connected, Ignore, Interf, InterfExtract, Redundancy, RedPool, RedSolve, PopProposal, Optimum, Common, InterfBest, InterfCommon, ConnInterf, FlowExtract | the solver: a theorem ranges over all assignments that meet the emitted constraints exactly; objectives are used only where a theorem names the optimum |
| `optimization/topology_optimization.py` (`optimize_and_report_topology` up to the report, `pre_opt_check`, `optimize_topology`, its steps, `update_topology_with_solution`) | Whole, Pipeline, CallerParams, Solution, Phases, NextPhase lemmas, RedPool | answers of the solver are parameters; logging and dumps; `did_problem_timeout` after the first problem of `maximize_common_bandwidth` |
| `optimization/topology_networkx.py`, `topology_report.py` (failure part), `topology_availability.py` | Nx, NxReport, Availability | shortest paths and maximum flow of networkx are parameters with their documented meaning; random times are given |
| `get_topology_routing_results`, `_get_dpa_routing_paths` of `topology_networkx.py`, `get_routing_topology` of `topology_report.py` | Routing | the two searches of networkx are parameters with their documented meaning; which of equally good paths they give is left open |
| `get_routing_flow_solution` of `topology_report.py` (table of utilizations), `add_statistics_to_topology` (flow part) | Metrics | the flow is a parameter; for the range theorem it is a solution of the flow problem after the removal of loops |
| `get_topology_metrics` of `topology_report.py` | Statistics | flow, failure analysis, availability and MCS levels are parameters; numpy percentiles by linear interpolation; costs and component counts are those of Capex and Counter; products such as total bandwidths are left out |
| `build_links_df`, `build_sectors_df`, `site_flow_statistics`, `build_sites_df` and the end of `analyze` of `topology_report.py` | Tables | only the columns computed there; columns copied from the components, rounding, index and number format of the data frame are left out; the flow of each link is a parameter |
| KML part of `topology_serializer.py`; `kml_library.py`, `extract_topology_from_kml_file` and what it calls | Kml | documents as trees of folders and placemarks; parsing XML is undoing the escapes of texts; GDAL gives one layer per folder in order, and names fields in lower case with `_` for space (hypothesis of C139); columns from link budget, geometry and flow are left out; hashes are a parameter |
| `dms_to_decimal`, `load_csv_and_validate`, `load_input_sites_from_csv_file`, `load_topology_link_csv` of `csv_library.py`; `_construct_sites` for candidate topologies | Csv | header and texts of the cells as `pandas` splits them; which texts are numbers, how numbers are printed, `float`, `int`, `strip`, `upper`, `casefold` are parameters; a column is read as numbers if all its cells are; tables with repeated columns are covered only by the header check |

Not modelled: CSV and pickle writers. The interference problem takes the table of `compute_link_interference` as a
parameter; the table itself is in WorstCase.

## Plan per property

| Id | What is modelled | How it is proved |
|----|------------------|------------------|
| C01-C05 | `Topology` as a state machine with all `add_*`/`remove_*` calls | invariant by induction over call lists; frame lemmas for each call; the remove/re-add/remove crash and the wireless predecessor query are concrete counterexamples, with `_partial` theorems for what holds |
| C06-C07 | the three status setters and the link compatibility check | invariant by induction over assignment lists; case analysis |
| C08-C10 | `hops_from_pops` loop, demand reachability, marking loop | loop invariant "level k = all sites at distance <= k", termination by counting sites, path specification by an inductive predicate |
| C11-C13 | `update_topology_with_solution` and its four helpers | frame reasoning per step; reachability invariant for the clean-up; counterexample for sites without sectors |
| C14, C61 | `compute_capex`, counters | fold invariants; permutation invariance under a same-status hypothesis and a counterexample without it |
| C15, C50 | `compute_max_pop_capacity_of_topology` and the early exit of the cost phase | weighted sum inequality for arbitrary time shares; counterexample for direct POP-demand links |
| C16-C19 | rate table functions and power adjustment over rationals | induction over the table and over the level; counterexamples for EIRP and non-consecutive levels |
| C20-C21 | binary search and device pair table | invariant of the interval; induction over the lists |
| C22-C28 | candidate pair enumeration, batching, memo, connectable status, additional DNs, base topology links, confidence, same building | list induction, reachability closure, counterexamples for the three violations |
| C29-C33 | `InputSites`, link loading, rate table acceptance, configuration, device SKUs | induction over the input list; sortedness; counterexamples |
| C34-C38 | availability simulation, failure analyses, disjoint paths, adversarial links | event fold invariant; graph reachability specification; counterexample for lost attributes |
| C39-C45, C48-C51 | constraint generation of the network models as predicates over assignments, and solution extraction | finite sums, path extraction from a positive flow by a cut argument, case analysis; counterexamples where the constraint is missing |
| C46 | `prune_loops` as a DFS over an explicit flow map | well-founded recursion, conservation and acyclicity by induction |
| C47 | constraints of the redundancy model | cut argument: the flow into the set of sites not reachable after the failure must cross failed sites |
| C52-C53 | constraints of the interference model | linear arithmetic over feasible assignments |
| C54, C110 | POP proposal: access topology, count constraint, copies of the chosen DNs | counting over feasible assignments; loop invariants for the copies; counterexamples |
| C55-C57 | deployment rules, `angle_delta`, sector assignment | case analysis over rationals, list argmin |
| C58-C60 | demand grid, demand connection, raster indices | arithmetic, induction; counterexamples |
| C62 | temporary status change and restoration | frame reasoning; counterexample with an EXISTING link |

| C63-C67 | ids, sector statuses, ignored links, node siblings, geohash | injectivity of rendering, invariant over histories, exact characterisation of the closure; geohash cells as intervals |
| C68-C70 | counters | permutation and `Nodup` arguments; counterexamples |
| C71-C74 | rate tables | induction over the table; counterexamples |
| C75-C78 | sector limits, status validation, re-orientation, sector activation | case analysis, frame lemmas |
| C79-C82 | demand, obstructions, merging and resampling rasters | list induction, floor arithmetic |
| C83-C88 | extraction, application of plans, reported costs, coverage, routing | from feasibility to the extracted plan, then to statuses by C11-C13 |
| C89-C90 | connectable demand sites | optimum characterised by open paths |
| C91-C97 | interference problem | finite sums over the feasible set; counterexamples by a verified checker of the constraints |
| C98-C102 | one phase after the other, redundancy phase | the invariant needed by the next phase is established by the previous one; max-flow cut arguments |
| C103-C104 | disjoint paths, KML links | shortest walks as specification |
| C105-C108 | devices, picked sites, inference of locations, detected sites | state-machine invariants over the loops |
| C109 | ellipsoidal confidence as clearance of the Fresnel zone | quadratic and quotient estimates over the reals, exact for level links, witness for sloped ones |
| C111 | acceptance of the optimization input | equivalence by case analysis over the checks |
| C112-C114 | reading configurations, typo check, ranges | dictionaries merged level by level; the classes as tables of parameters; equivalence per class |
| C115-C116 | gain map, SINR, power control rounds | gain map as a set of triples by induction over the nested loops; invariant over rounds: powers only go down; counterexamples |
| C117 | routing of the report | walks of the graph correspond to routes of the topology; prefixes of shortest walks are shortest; a demand site occurs in one zone only |
| C118 | table of link utilizations | invariant of the loop over the links: entries so far for each link without its reverse, each pair of opposite links; range from C88 and C46; concrete counterexample |
| C119 | statistics of the report | the loop over the links fills, per DN sector, exactly the set of hashes of its links; a list without repetitions is described by its finite set; counterexamples |
| C120 | failure, demand and availability statistics | the failure report's dictionaries have one entry per site or pair in use (C109–C113 supply who loses service); counting lemmas for the disjoint routes; percentiles are monotone and split the sorted list |
| C121-C122 | orientation of the radios | every row of the dynamic program is the minimum over chains of candidates; metric = penalty × unseen links + spread, with spread below one penalty because at most one sector sees a link (triangle inequality on the circle); counting steps of three degrees; counterexamples |
| C123-C126 | creating and checking sectors | the check as a statement about the table of azimuths per node; circular mean of a node by telescoping sums; a bearing between the outermost sectors is within a scan range of some sector; the loop as an append of the found sectors; metric of the client search; counterexamples |
| C127-C132 | spherical geometry over the reals | places as unit vectors of three-dimensional space; haversine = arc cosine of the inner product; translation and bearing in the local frame of north and east; convexity of the square of arccos compares spherical with flat triangles; counterexamples computed exactly |
| C133-C136 | tables of the report | invariant of the dictionaries of sets (each holds exactly what was added, without repetitions); sums of flows by induction over the links, total by summing over the fibres of the ends; composed with C08, C14, C55, C75 and C119 |
| C137-C140 | KML writer and loader | grouping after sorting gives one group per key, with all its members; escaping is undone by reading; every layer adds exactly its features to what is read, so the folds compose; loading then reduces to C29 and C104; counterexamples by evaluation of writer and loader |
| C141-C144 | CSV loaders | splitting as a function on characters, shown equivalent to the parts of the text by induction; each attribute read by case analysis over its column; equivalences row by row composed along the lists, with C30 for the links |
| C145-C149 | link budget over the reals, radio files | lower bound of the term inverted in the rain loss, monotone quotient by ratio bounds; Bernoulli inequality for the availability; search for the marker lines by induction over the antennas of the file; equivalence of the column look-up with the header |
| C150-C155 | loading of polygons, elevation data, shape files and buildings, corners | case analysis over the collected faults; pointwise sums of rasters; index arithmetic around the ring for corners |
| C156-C160 | a whole planning run: input kept, coverage settled for, why it gives up, connected result | every step of the run is a history of restricted API calls, induction over those; induction over the coverages tried |
| C161-C163 | hop limit, input order and links of the final plan of a whole run | what each phase of a run without extra POPs can change, composed with the exact effect of marking, of applying a plan and of the clean-up |
| C164 | net gain as a link budget in metres and MHz, rain loss at the reference availability | logarithm laws; weighted geometric mean of two bounded factors |
| C165-C166 | the candidate graph of a whole LOS run; success of the run | invariant of the choice of places (each picked site is a copy of a known point) composed with the exact effect of adding sites and links |
| C167-C168 | the planning call as a whole: what it keeps, what it reports before it starts | preparation as a history of API calls that leaves sites and link statuses alone, composed with C156; case analysis of all reasons to give up |
| C169 | a candidate topology file as a whole | exactness of the table parsers, of the expansion to devices and of the link list composed |
| C170 | exclusion zones | convexity: half planes separate polygons in degrees from lines in metres |
| C171-C172 | locations, their caches and copies; line of sight across UTM zones | invariant of the filled attributes under reads; bounds on eastings and northings |
| C173 | the two solves of the redundancy problem | scaling of flows to a given shortage; a network with two ways to distribute the shortage |
| C174 | the redundancy step inside a run | C47 for the parameters chosen from the number of POPs in use |
| C175 | the coverage step inside a run | C44 and C85 for the answer of the solver |
| C176-C177 | objectives of the cost and coverage phases | the objective is the cost of building all chosen sites; extraction only removes; flow bookkeeping (C39) |
| C178 | new sites of a run | C54 and C110 for the sorted input; later phases only change statuses and polarities |
| C179 | coverage phase with common bandwidth | C39 per demand site; objective and bound of the variable |
| C180 | cost phase with common bandwidth | as C176, with C86 per demand site |
| C181 | coverage requirement with common bandwidth | the minimum exists unless nothing is connectable (violation) |
| C182 | interference table of the optimizer | one link per pair of sites; powers of C116 are at most the maximum |
| C183 | objective of the interference phase | weighted sum of 0/1 variables is the sum over the chosen links; shortage is demand minus what arrives; witness where two links trade demand for length |
| C184 | choice of the LOS validator | C27 and C109 for the validator that the limits of the configuration lead to |
| C185 | capacities at the start of planning | induction over the links already visited; placing demand leaves links alone |
| C186 | connectable demand sites of the interference phase | cut argument for the path; paths of a feasible network superposed into one unit flow |
| C187 | routing of the report | loop removal keeps the routing problem feasible; C46, C88 and C49 |
| C188 | interference phase with common bandwidth | as C183, for the objective of the first solve; witness where a link without backhaul wins both solves |
| C189 | assignments to the caller's parameters | a run with a plan passes every constructor without exception; witness for a run given up in one |
| C190 | loading of input sites | one list of sites per row; what loading keeps of them is C29, what the inference does C107 |
| C191, C192 | questions about a topology | invariant of the topology; induction over the sectors; witness with two sectors per site |
| C193 | links without traffic in the interference phase | the interference of a link is at most that of all interferers sending all the time; the class without throughput carries that bound |
| C194 | cost of the redundancy plan | as for the other phases: all sectors of a node are selected together |

Violations. Where the code does not have the property, the theorem of the part that holds carries `_partial` and a
theorem `_violation` exhibits an input on which the model (hence the code as read) breaks the claim; `MANIFEST.json`
says which.

Not expressible in an executable model and hence left out of the theorems:
pyproj/GDAL coordinate transforms, the MILP solver's optimality and time
limits, floating-point rounding, process pools, file formats below the row
level.
