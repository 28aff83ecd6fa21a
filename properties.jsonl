{"id": "C01", "title": "Topology never holds dangling references", "statement": "Starting from an empty topology, after any sequence of add/remove calls for sites, sectors, demand sites and links (calls that raise included), every link in the topology joins two sites that are in the topology, every sector in the topology sits on a site in the topology, each object is filed under its own id, and the successor/predecessor lookups list exactly the links that are present.", "quantifier": "every finite history of Topology add_*/remove_* calls, with arbitrary ids and including calls that raise", "why_tests_cant": "The claim ranges over unbounded call histories and over histories in which some calls fail; a test fixes one history.", "anchors": ["terragraph_planner/common/topology_models/topology.py: Topology.add_site, remove_site, add_sector, remove_sector, add_link, remove_link, add_demand_site, remove_demand_site"]}
{"id": "C02", "title": "A removed site can be re-added and removed again", "statement": "Removing a site that is present always succeeds, whatever happened before, including when a site with the same id was removed earlier and added again.", "quantifier": "every history of Topology calls that leaves the site present", "why_tests_cant": "The failure needs a specific remove / re-add / remove order with sectors; tests never replay ids. The shipped code violates it: the per-site sector index is not cleared on removal.", "anchors": ["terragraph_planner/common/topology_models/topology.py: Topology.remove_site, site_id_to_sector_ids"]}
{"id": "C03", "title": "Removing a site removes exactly what belongs to it", "statement": "When remove_site(s) returns normally, the topology afterwards contains exactly the former sites except s, the former sectors except those mounted on s, and the former links except those whose transmitter or receiver is s; demand sites are untouched.", "quantifier": "every topology reachable by API calls and every site id", "why_tests_cant": "A frame condition quantifies over everything that must not change; tests compare a few fields of one fixture.", "anchors": ["terragraph_planner/common/topology_models/topology.py: Topology.remove_site"]}
{"id": "C04", "title": "Neighbour queries agree with the set of links", "statement": "get_successor_sites(s) returns exactly the receivers of links transmitted by s and get_predecessor_sites(s) exactly the transmitters of links received by s, each once; get_wireless_successor_sites restricts to wireless links. The predecessor version should likewise return the transmitters of wireless links into s.", "quantifier": "every reachable topology and every site in it", "why_tests_cant": "Requires agreement of three redundant maps in every reachable state. The wireless predecessor query violates it (it looks up the link in the wrong direction).", "anchors": ["terragraph_planner/common/topology_models/topology.py: get_successor_sites, get_predecessor_sites, get_wireless_successor_sites, get_wireless_predecessor_sites, get_link_by_site_ids"]}
{"id": "C05", "title": "Sorting a topology loses and invents nothing", "statement": "Topology.sort() leaves the same sites, sectors, links and demand sites under the same ids, makes every dictionary iterate in increasing id order, and two topologies with the same contents iterate identically after sorting; sorting twice is the same as sorting once.", "quantifier": "every topology, whatever its insertion order", "why_tests_cant": "Independence from insertion order quantifies over all permutations of all contents.", "anchors": ["terragraph_planner/common/topology_models/topology.py: Topology.sort"]}
{"id": "C06", "title": "EXISTING and UNAVAILABLE are never written or overwritten", "statement": "After any sequence of status assignments on sites, sectors and links (assignments that raise included), an object that was EXISTING or UNAVAILABLE still has that status and an object that was not has not acquired it.", "quantifier": "every finite sequence of status assignments on any collection of sites, sectors and links", "why_tests_cant": "It is an invariant over unbounded assignment sequences with failures in the middle.", "anchors": ["terragraph_planner/common/topology_models/site.py: Site.status_type setter", "terragraph_planner/common/topology_models/sector.py: Sector.status_type setter", "terragraph_planner/common/topology_models/link.py: Link.status_type setter"]}
{"id": "C07", "title": "A link status assignment that is accepted is compatible with its end sites", "statement": "Whenever constructing a link or assigning its status succeeds, the status obeys the rules: EXISTING only between EXISTING sites; UNAVAILABLE if an end is UNAVAILABLE; UNREACHABLE if an end is UNREACHABLE; never PROPOSED/EXISTING when an end is CANDIDATE. In particular no link at all can be built between an UNAVAILABLE and an UNREACHABLE site.", "quantifier": "all combinations of site statuses and link status, and every assignment sequence on one link", "why_tests_cant": "The rule table must hold for all combinations at once and after any sequence of accepted assignments.", "anchors": ["terragraph_planner/common/topology_models/link.py: Link._check_compatible_status, __init__, status_type setter"]}
{"id": "C08", "title": "Hop counts are shortest-path lengths from POPs", "statement": "hops_from_pops returns, for each site, the minimum number of links on a directed path of admitted links through admitted sites from an admitted POP, and has no entry for a site that no such path reaches.", "quantifier": "every topology (any graph shape, including cycles and disconnected parts) and every status filter", "why_tests_cant": "Shortest-path optimality and completeness are universally quantified over paths of unbounded length.", "anchors": ["terragraph_planner/optimization/topology_operations.py: hops_from_pops"]}
{"id": "C09", "title": "A demand site is reachable iff one of its sites is reachable from a POP", "statement": "get_reachable_demand_sites returns exactly the demand sites having a connected site that a path of admitted links and sites joins to an admitted POP.", "quantifier": "every topology, demand assignment and status filter", "why_tests_cant": "Exactness over arbitrary graphs and path lengths.", "anchors": ["terragraph_planner/optimization/topology_operations.py: get_reachable_demand_sites"]}
{"id": "C10", "title": "Marking unreachable components marks exactly the right sites", "statement": "When mark_unreachable_components returns, a site is UNREACHABLE iff it already was, or it was CANDIDATE and no admitted path from a POP reaches it within the hop limit; every link touching a newly marked site and every sector on an unreachable site is UNREACHABLE; all other statuses are unchanged.", "quantifier": "every topology, every hop limit (None and 0 mean no limit)", "why_tests_cant": "Exactness over arbitrary graphs; also the frame condition over every untouched object.", "anchors": ["terragraph_planner/optimization/topology_operations.py: mark_unreachable_components, hops_from_pops"]}
{"id": "C11", "title": "Applying an optimizer solution never alters fixed statuses", "statement": "update_topology_with_solution leaves every EXISTING, UNAVAILABLE or UNREACHABLE site, sector and link with that status, whatever the solution says.", "quantifier": "every topology and every decision vector, including inconsistent ones", "why_tests_cant": "Decision vectors range over all 0/1 assignments; tests use solver output.", "anchors": ["terragraph_planner/optimization/topology_optimization.py: update_topology_with_solution, _set_site_decisions, _set_sector_decisions, _set_link_decisions, _remove_disconnected_components"]}
{"id": "C12", "title": "A component is PROPOSED iff the solution selected it", "statement": "Before the clean-up of disconnected parts, a CANDIDATE or PROPOSED site is PROPOSED afterwards iff the solution's decision for it is 1 and CANDIDATE otherwise; likewise for sectors and, for links, PROPOSED only if decided 1.", "quantifier": "every topology and decision vector", "why_tests_cant": "Universally quantified over topologies and decision vectors.", "anchors": ["terragraph_planner/optimization/topology_optimization.py: update_topology_with_solution and its helpers"]}
{"id": "C13", "title": "Disconnected proposals are withdrawn and connected ones are kept", "statement": "After the clean-up, a PROPOSED site that active links and sites connect to an active POP is still PROPOSED, no link stays PROPOSED at an end site that was withdrawn, and no site that is not connected to a POP is left PROPOSED.", "quantifier": "every topology and status assignment", "why_tests_cant": "Requires reasoning over all graph shapes. The last clause fails in the shipped code for a disconnected site that has no sectors.", "anchors": ["terragraph_planner/optimization/topology_optimization.py: _remove_disconnected_components"]}
{"id": "C14", "title": "CAPEX counts each active node and site once", "statement": "compute_capex reports proposed cost = site cost of each PROPOSED site + device node cost of each node whose sectors are PROPOSED, and total = proposed + the same over EXISTING; the result does not depend on the iteration order of sites and sectors.", "quantifier": "every topology, every ordering of its dictionaries, all cost parameters", "why_tests_cant": "Order independence ranges over all permutations. It fails for nodes holding sectors of mixed status; proved when sectors of a node share a status.", "anchors": ["terragraph_planner/optimization/topology_operations.py: compute_capex"]}
{"id": "C15", "title": "POP capacity bound is an upper bound on any flow out of the POPs", "statement": "Any flow that respects link capacities, one-active-link-time-share per sector and the per-POP capacity carries at most compute_max_pop_capacity_of_topology out of the POPs over links of the topology.", "quantifier": "every topology and every flow/time-division assignment satisfying the stated limits", "why_tests_cant": "Quantifies over all real-valued flows.", "anchors": ["terragraph_planner/optimization/topology_operations.py: compute_max_pop_capacity_of_topology", "terragraph_planner/optimization/ilp_models/cost_optimization.py: MinCostNetwork.solve"]}
{"id": "C16", "title": "MCS selection is the best level the SNR supports", "statement": "For a rate table accepted by the planner, get_mcs_from_snr(snr) returns the highest level whose SNR threshold is met, 0 when none is met, and never decreases as the SNR grows.", "quantifier": "every SNR value and every nonempty rate table", "why_tests_cant": "Two-sided optimality and monotonicity over all reals and tables.", "anchors": ["terragraph_planner/common/rf/link_budget_calculator.py: get_mcs_from_snr, get_snr_from_mcs, get_link_capacity_from_mcs"]}
{"id": "C17", "title": "Tx power adjustment stays in range, supports its level, and terminates", "statement": "adjust_tx_power_with_backoff terminates and returns either level 0 or a power between the device minimum and the device maximum less the back-off of the level; that power is the least allowed one that meets the SNR threshold of the returned level, and no higher usable level is passed over.", "quantifier": "every rate table, start level, power limits, gain and noise values", "why_tests_cant": "The loop length is data dependent and the claim ranges over all real parameters.", "anchors": ["terragraph_planner/common/rf/link_budget_calculator.py: adjust_tx_power_with_backoff, get_max_tx_power"]}
{"id": "C18", "title": "Transmit power respects the EIRP limit", "statement": "get_max_tx_power never exceeds the device maximum nor EIRP limit minus antenna gain, so that emitted EIRP never exceeds the limit.", "quantifier": "all device parameters and EIRP limits", "why_tests_cant": "All real parameters. Violated when the device minimum power itself exceeds the limit; exact characterisation proved.", "anchors": ["terragraph_planner/common/rf/link_budget_calculator.py: get_max_tx_power"]}
{"id": "C19", "title": "The reported MCS level exists in the rate table", "statement": "The MCS level returned after power adjustment is a level of the device's rate table (so that its capacity and back-off are the table's).", "quantifier": "every rate table and starting level", "why_tests_cant": "Requires reasoning over all tables; violated for tables whose levels are not consecutive.", "anchors": ["terragraph_planner/common/rf/link_budget_calculator.py: adjust_tx_power_with_backoff, get_link_capacity_from_mcs"]}
{"id": "C20", "title": "Maximum LOS distance is the boundary of link feasibility", "statement": "The distance returned by search_max_los_dist_based_on_capacity lies between the bounds; when capacity is non-increasing with distance, every distance strictly below it supports a link and no distance at or above it (up to the bound) does.", "quantifier": "all integer bounds and every capacity function of distance", "why_tests_cant": "Binary-search correctness for every interval and every monotone capacity function.", "anchors": ["terragraph_planner/los/helper.py: search_max_los_dist_based_on_capacity"]}
{"id": "C21", "title": "Device pair ranges are symmetric and capped", "statement": "get_max_los_dist_for_device_pairs gives every DN-device pair the same range in both directions, assigns a range to every required pair exactly once, and never exceeds the configured upper bound.", "quantifier": "every device list and bound", "why_tests_cant": "Ranges over all device lists.", "anchors": ["terragraph_planner/los/helper.py: get_max_los_dist_for_device_pairs"]}
{"id": "C22", "title": "LOS candidate pairs: each eligible pair exactly once", "statement": "The LOS phase lists each unordered pair of distinct sites, at least one of them new (input or detected) and not both client sites or both POPs, exactly once as a candidate, in both directions if neither is a client site and towards the client site otherwise; no other pair is listed; and the processing batches together contain each candidate exactly once, in order.", "quantifier": "all site lists and batch sizes", "why_tests_cant": "Ranges over all site lists and partitions into batches.", "anchors": ["terragraph_planner/los/core.py: _get_los_topology / compute_los batches", "terragraph_planner/los/helper.py: get_all_valid_los_links, compute_los_batch"]}
{"id": "C23", "title": "LOS memoisation does not change the answer", "statement": "Reusing a previously computed LOS confidence for a pair of coordinates gives the same result as recomputing it for that pair; hence the division into processing batches does not change the LOS links found.", "quantifier": "all sequences of site pairs in a batch", "why_tests_cant": "Depends on the whole history of a batch. Violated: the cache key ignores building id and location type.", "anchors": ["terragraph_planner/los/helper.py: compute_los_batch"]}
{"id": "C24", "title": "Connectable-status sets partition the sites by reachability", "statement": "get_site_connectable_status splits the candidate sites into four disjoint sets covering all of them; a site is classed connected iff a chain of picked sites joins it to a picked POP.", "quantifier": "all LOS graphs and picked sets", "why_tests_cant": "Reachability over arbitrary graphs.", "anchors": ["terragraph_planner/los/helper.py: get_site_connectable_status"]}
{"id": "C25", "title": "Additional DNs are new, distinct and adjacent to the connected part", "statement": "select_additional_dns only ever adds sites not picked before, never the same twice, each of which has LOS to the connected part and sees a client site that was not served yet, as one that sees the most of them; a client site remains unserved only if at some point no selectable site saw it.", "quantifier": "all LOS graphs and picked sets", "why_tests_cant": "Ranges over all graphs and iteration histories.", "anchors": ["terragraph_planner/los/helper.py: select_additional_dns"]}
{"id": "C26", "title": "LOS links to base-topology sites are kept", "statement": "Every valid LOS link between two sites that end up in the topology becomes a topology link, including links between newly detected sites and sites of the base topology.", "quantifier": "all base topologies and valid-LOS lists", "why_tests_cant": "Interaction of two phases over arbitrary inputs. Violated: sites already in the base topology are never registered, so their links to new sites are dropped.", "anchors": ["terragraph_planner/los/helper.py: add_sites_to_topology, add_links_to_topology"]}
{"id": "C27", "title": "LOS confidence is bounded, order independent and monotone in obstructions", "statement": "The cylindrical LOS confidence is 0 or between the threshold and 1; it does not depend on the order in which obstruction points are visited; adding obstructions never raises it; raising the threshold never turns no-LOS into LOS; it is the same in both directions; and it is the exact clearance: no counted surface point comes closer to the line than confidence times the Fresnel radius, and some comes that close if it is below 1.", "quantifier": "all finite obstruction sets and thresholds", "why_tests_cant": "Ranges over all point sets and orders.", "anchors": ["terragraph_planner/los/cylindrical_los_validator.py: CylindricalLOSValidator._compute_confidence, _passes_simple_check"]}
{"id": "C28", "title": "LOS is evaluated for distinct rooftops", "statement": "Two sites are exempted from LOS computation as being on the same building only if they are on the same building.", "quantifier": "all pairs of sites", "why_tests_cant": "All combinations of location types and ids. Violated: all user-supplied rooftop sites share one placeholder building id.", "anchors": ["terragraph_planner/los/base_los_validator.py: BaseLOSValidator._on_the_same_building", "terragraph_planner/common/data_io/input_sites_loader.py: InputSitesLoader._construct_sites"]}
{"id": "C29", "title": "Loaded sites have unique names", "statement": "After loading any list of sites, no two different sites answer to the same name, each stored site is found by looking up its name, and adding the same site twice has no effect.", "quantifier": "every sequence of sites with arbitrary names, SKUs and locations", "why_tests_cant": "Ranges over all sequences; collisions need a crafted name. Violated when an explicit name equals another site's name with '_<sku>' appended.", "anchors": ["terragraph_planner/common/data_io/input_sites.py: InputSites.add_site, _validate_site_name, get_site_by_name"]}
{"id": "C30", "title": "Link lists load both directions, except out of CNs", "statement": "For every pair of site names in the link list, exactly the directed links between those two sites whose transmitter is not a CN are present afterwards; no other link is created; an unknown site name is rejected with a DataException.", "quantifier": "every site list and every list of name pairs (with repeats, both orders, self pairs)", "why_tests_cant": "Ranges over all lists and orders.", "anchors": ["terragraph_planner/common/data_io/utils.py: _add_link_between_sites, extract_topology_from_csv_files, map_input_sites_links_from_kml"]}
{"id": "C31", "title": "Accepted rate tables are jointly ordered", "statement": "read_mcs_snr_mbps_map_data accepts a table only if ordering it by level also orders SNR threshold and throughput (non-decreasing) and back-off; the returned table is the rows the device can use (power after back-off at least the minimum power, level at least the minimum level), in file order.", "quantifier": "every table of numeric rows", "why_tests_cant": "Ranges over all tables and row orders.", "anchors": ["terragraph_planner/common/data_io/csv_library.py: read_mcs_snr_mbps_map_data"]}
{"id": "C32", "title": "Configuration survives a round trip", "statement": "Loading the dictionary produced by to_dict yields an equal configuration, and two configurations compare equal iff all their fields are equal.", "quantifier": "every configuration class, every object its constructor accepts (arguments of the annotated types), nested arbitrarily", "why_tests_cant": "Ranges over all field values and device lists. Violated in places: no limit on the LOS distance comes back as 200 m, antenna patterns cannot be written, radio parameters out of range are accepted but not read again, and comparison stops at the first nested configuration or None.", "anchors": ["terragraph_planner/common/configuration/configs.py: ConfigParser.to_dict, from_dict, __eq__"]}
{"id": "C33", "title": "No two accepted devices share a SKU", "statement": "A device list accepted by the configuration has pairwise different SKUs ignoring case, and a list with a clash is rejected.", "quantifier": "every device list", "why_tests_cant": "Ranges over all lists.", "anchors": ["terragraph_planner/common/configuration/configs.py: _check_duplicated_devices"]}
{"id": "C34", "title": "Simulated availability is a fraction of the simulated time", "statement": "For every failure schedule, the reported availability of each demand site is between 0 and 1; a demand never disconnected is 1.", "quantifier": "all failure schedules (event orders and times) and graphs", "why_tests_cant": "Ranges over all random schedules. The clause about clipping at the time limit is violated for elements down when the limit is hit.", "anchors": ["terragraph_planner/optimization/topology_availability.py: compute_availability"]}
{"id": "C35", "title": "Single-link-failure counts are exact", "statement": "For each link, the reported breakdown count equals the number of connected demand sites that lose their last path to every POP when the link (both directions) is removed, and the graph is left unchanged.", "quantifier": "every graph, link and demand set", "why_tests_cant": "Cut reasoning over arbitrary graphs.", "anchors": ["terragraph_planner/optimization/topology_networkx.py: single_edge_failures, find_connected_demands"]}
{"id": "C36", "title": "Single-site-failure counts are exact", "statement": "For each site, the reported breakdown count equals the number of connected demand sites that lose their last path to every POP when the site is removed, and the graph is left unchanged.", "quantifier": "every graph, site and demand set", "why_tests_cant": "Cut reasoning over arbitrary graphs.", "anchors": ["terragraph_planner/optimization/topology_networkx.py: single_site_failures"]}
{"id": "C37", "title": "Disjoint path analysis leaves the graph as it found it", "statement": "After disjoint_paths returns, the graph has the same nodes, edges and edge attributes as before.", "quantifier": "every attributed graph", "why_tests_cant": "Frame condition over all attributes. Violated: the link_type attribute of temporarily removed edges is lost.", "anchors": ["terragraph_planner/optimization/topology_networkx.py: disjoint_paths"]}
{"id": "C38", "title": "Adversarial links are never cut edges of the candidate graph", "statement": "find_most_disruptive_links returns at most the requested number of links, each removable without disconnecting any demand in the candidate graph, both directions together, and in order of decreasing disruption.", "quantifier": "every pair of graphs and count", "why_tests_cant": "Ranges over all graphs.", "anchors": ["terragraph_planner/optimization/topology_networkx.py: find_most_disruptive_links"]}
{"id": "C39", "title": "Flow bookkeeping: shortage is exactly unmet demand", "statement": "In every feasible solution of the planning model, flow leaving the POPs equals total demand minus total shortage, and what arrives at each demand site equals its demand minus its shortage.", "quantifier": "every topology input and every feasible (fractional or integer) assignment", "why_tests_cant": "Quantifies over all feasible points of the model, which no solver run enumerates.", "anchors": ["terragraph_planner/optimization/ilp_models/network_optimization.py: create_flow_balance, create_flow_balance_with_shortage, _get_rhs_for_flow_balance"]}
{"id": "C40", "title": "Served demand has a path of active sites from a POP", "statement": "In every feasible solution, a demand site receiving positive flow is joined to a POP by a directed path of links with positive flow, all of whose sites are selected.", "quantifier": "every topology input and feasible assignment", "why_tests_cant": "Existence of a path is quantified over all graphs and real flows.", "anchors": ["terragraph_planner/optimization/ilp_models/network_optimization.py: create_flow_balance_with_shortage, create_flow_site_relationship"]}
{"id": "C41", "title": "Flow respects capacity and radio time sharing", "statement": "In every feasible solution, flow on a wireless link is at most capacity times its time share; time shares of a sector (transmit, and receive) sum to at most one and to zero when the sector is not selected; so a sector with unselected site carries nothing.", "quantifier": "every topology input and feasible assignment", "why_tests_cant": "All feasible real assignments.", "anchors": ["terragraph_planner/optimization/ilp_models/network_optimization.py: create_tdm_flow_relationship, create_tdm_sector_relationship, create_sector_site_relationship"]}
{"id": "C42", "title": "Links carry traffic only between opposite polarities", "statement": "In every feasible solution, a wireless backhaul link with positive time share joins an odd site with an even site.", "quantifier": "every topology input and feasible assignment", "why_tests_cant": "All feasible assignments.", "anchors": ["terragraph_planner/optimization/ilp_models/network_optimization.py: create_tdm_polarity_relationship, create_tdm_compatible_polarity"]}
{"id": "C43", "title": "At most one site per location is built", "statement": "In every feasible solution, of co-located sites at most one is selected, except an existing CN location which may be upgraded.", "quantifier": "every topology input and feasible assignment", "why_tests_cant": "All feasible assignments.", "anchors": ["terragraph_planner/optimization/ilp_models/network_optimization.py: create_colocated_site_relationship, _get_max_and_valid_site_types"]}
{"id": "C44", "title": "Reported plan cost never exceeds the budget", "statement": "In the coverage phase, the cost of the extracted solution (after unselecting useless sites and sectors) is at most the budget.", "quantifier": "every topology input, budget and feasible assignment", "why_tests_cant": "All feasible assignments, and the effect of post-processing on all of them.", "anchors": ["terragraph_planner/optimization/ilp_models/network_optimization.py: create_cost_constraint, _extract_cost", "terragraph_planner/optimization/ilp_models/site_optimization.py: extract_solution"]}
{"id": "C45", "title": "Extraction only keeps components that are mutually consistent", "statement": "In every extracted solution, a selected link joins selected sites of opposite polarity through selected sectors with the same channel, and a selected sector sits on a selected site.", "quantifier": "every topology input and solver assignment", "why_tests_cant": "All assignments.", "anchors": ["terragraph_planner/optimization/ilp_models/site_optimization.py: extract_solution, get_link_decisions_from_sectors_and_polarity"]}
{"id": "C46", "title": "Loop pruning removes circulations and nothing else", "statement": "prune_loops terminates; afterwards no directed cycle of links carries flow above the tolerance; no link's flow increases or becomes negative; and the net flow into every site is unchanged.", "quantifier": "every flow assignment on every graph without self loops", "why_tests_cant": "Termination and acyclicity over all graphs and real flows.", "anchors": ["terragraph_planner/optimization/ilp_models/network_optimization.py: prune_loops"]}
{"id": "C47", "title": "Redundancy guarantees survival of site failures", "statement": "In every feasible solution of the redundancy model, a protected DN with no shortage stays joined to a POP by a path of positive-flow links through selected sites after any failure of fewer POPs/DNs than the redundancy level it was given.", "quantifier": "every topology input, feasible assignment and failure set", "why_tests_cant": "Min-cut argument over all graphs, flows and failure sets.", "anchors": ["terragraph_planner/optimization/ilp_models/redundancy_optimization.py: RedundantNetwork.create_*_constraints"]}
{"id": "C48", "title": "Sectors on one node are selected together", "statement": "In every feasible solution, sectors of the same node on a site are either all selected or all unselected.", "quantifier": "every topology input and feasible assignment", "why_tests_cant": "All feasible assignments. Violated: the constraint that should enforce it is never emitted.", "anchors": ["terragraph_planner/optimization/ilp_models/network_optimization.py: create_same_node_sector_relationship"]}
{"id": "C49", "title": "Existing links can carry flow in the reported routing", "statement": "The max-flow report lets traffic use every active sector, whether PROPOSED or EXISTING.", "quantifier": "every topology", "why_tests_cant": "All topologies with existing equipment. Violated: EXISTING sectors are given zero time share.", "anchors": ["terragraph_planner/optimization/ilp_models/flow_optimization.py: MaxFlowNetwork", "terragraph_planner/optimization/ilp_models/optimization_setup.py: extract_fixed_inputs"]}
{"id": "C50", "title": "The infeasibility early exit is sound", "statement": "When the cost phase reports that no solution exists because of POP capacity, the optimization model indeed has no feasible solution.", "quantifier": "every topology input and coverage target", "why_tests_cant": "Must hold for all inputs where the exit fires. Violated for POPs connected directly to demand.", "anchors": ["terragraph_planner/optimization/ilp_models/cost_optimization.py: MinCostNetwork.solve", "terragraph_planner/optimization/topology_operations.py: compute_max_pop_capacity_of_topology"]}
{"id": "C51", "title": "Unavailable sites are never selected, existing sites always are", "statement": "In every feasible solution an UNAVAILABLE or UNREACHABLE site is not selected and an EXISTING site is.", "quantifier": "every topology input and feasible assignment", "why_tests_cant": "All feasible assignments. Violated for UNAVAILABLE POPs when POPs are forced active.", "anchors": ["terragraph_planner/optimization/ilp_models/network_optimization.py: create_decided_site_constraints"]}
{"id": "C52", "title": "Point-to-multipoint and CN limits hold in the interference model", "statement": "In every feasible solution of the interference phase, each CN has at most one chosen incoming link, the number of chosen links sent by a sector of a distribution site respects the configured limits, a link and its reverse are chosen together, and a chosen link joins built sites through selected sectors that agree on one channel.", "quantifier": "every topology input and feasible assignment", "why_tests_cant": "All feasible assignments.", "anchors": ["terragraph_planner/optimization/ilp_models/interference_optimization.py: create_cn_link_constraints, create_point_to_multipoint_constraints, create_symmetric_link_constraints"]}
{"id": "C53", "title": "Interference model: chosen MCS class meets its SINR threshold and bounds flow", "statement": "In every feasible solution of the interference phase, a radio link that carries traffic is chosen, works on a single channel on which its sender's sector is, and there is a row of the receiver's MCS table whose capacity is at least the traffic and whose SNR requirement holds under noise plus the time-weighted power of the links that interfere on that channel with the same polarity.", "quantifier": "every topology input and feasible assignment", "why_tests_cant": "All feasible assignments.", "anchors": ["terragraph_planner/optimization/ilp_models/interference_optimization.py: exact capacity constraints"]}
{"id": "C54", "title": "POP proposal proposes the requested number of POPs and keeps the given ones", "statement": "In every feasible solution of the POP proposal phase every POP of the input that is not ruled out is chosen, and among the DNs where a POP can be added (not ruled out, no POP at the same place) exactly min(requested, available) are chosen; POPs are proposed at exactly these DNs after the solution is read off, and the phase does not fail.", "quantifier": "every topology built through the API, all parameters, every requested count and every feasible assignment", "why_tests_cant": "All feasible assignments of all topologies. Violated: an EXISTING POP makes the phase raise; two given POPs at one place count twice; chosen DNs without flow are dropped; more DNs in use than requested POPs make it infeasible.", "anchors": ["terragraph_planner/optimization/ilp_models/pop_proposal_optimization.py: _compute_access_candidate_topology, create_pop_constraint, propose_pops"]}
{"id": "C55", "title": "Angle violations are symmetric and complete", "statement": "find_angle_violating_link_pairs reports exactly the pairs of links transmitted by one site whose separation breaks the configured angle/length rule, each once.", "quantifier": "every topology and limits", "why_tests_cant": "All pairs in all topologies.", "anchors": ["terragraph_planner/optimization/deployment_rules.py: find_angle_violating_link_pairs, get_violating_link_ids, find_sector_limit_violations"]}
{"id": "C56", "title": "angle_delta is the signed difference modulo a full turn", "statement": "angle_delta(a,b) lies in (-180,180] degrees, is congruent to a-b modulo 360, and its absolute value is symmetric and the smallest possible.", "quantifier": "all real angles", "why_tests_cant": "All reals.", "anchors": ["terragraph_planner/common/geos.py: angle_delta"]}
{"id": "C57", "title": "A link is given a sector only if it is within scan range, and the closest one", "statement": "add_sectors_to_links assigns to each end of a wireless link a sector of that end's site whose boresight is within half the scan range (plus tolerance) and no other sector of the site is closer; a link without such sectors on both ends is left without sectors.", "quantifier": "every topology and azimuths", "why_tests_cant": "All azimuths and sector layouts.", "anchors": ["terragraph_planner/optimization/topology_preparation.py: add_sectors_to_links"]}
{"id": "C58", "title": "Demand grid covers the area and terminates", "statement": "Uniform demand generation terminates and places demand points so that every location inside the bounding box is within one grid spacing of a point.", "quantifier": "all bounding boxes and spacings", "why_tests_cant": "All reals. Violated near the antimeridian (does not terminate).", "anchors": ["terragraph_planner/optimization/topology_demand.py: _add_uniform_demand_sites"]}
{"id": "C59", "title": "Demand is connected to all and only co-located sites, once", "statement": "connect_demand_to_colocated_sites adds each co-located site to each demand point's connected sites exactly once and is idempotent.", "quantifier": "every topology", "why_tests_cant": "All topologies and repeated calls.", "anchors": ["terragraph_planner/optimization/topology_demand.py: connect_demand_to_colocated_sites"]}
{"id": "C60", "title": "Elevation lookups never read outside the raster", "statement": "Index conversion clamps every coordinate to a valid cell, and a window extraction returns exactly the cells whose centres lie in the requested bound.", "quantifier": "all coordinates, resolutions and raster sizes", "why_tests_cant": "All coordinates. The window half is violated for bounds left of / above the raster.", "anchors": ["terragraph_planner/los/elevation.py: Elevation.utm_to_idx, get_value, get_value_matrix_within_bound"]}
{"id": "C61", "title": "Component counters count each physical link and site once", "statement": "The report counts each pair of reciprocal links as one link, each site once per type, and totals are the sums of the per-status counts.", "quantifier": "every topology", "why_tests_cant": "All topologies.", "anchors": ["terragraph_planner/optimization/topology_component_counter.py: TopologyComponentCounter"]}
{"id": "C62", "title": "Temporary status changes are undone", "statement": "Computing reachable demand under ignored links/sites leaves every status as it was.", "quantifier": "every topology and ignore set", "why_tests_cant": "Frame condition including the exception path. Violated when an ignored link is EXISTING or UNAVAILABLE.", "anchors": ["terragraph_planner/optimization/ilp_models/network_optimization.py: _get_reachable_demand_sites_without_constraints"]}
{"id": "C63", "title": "Identifiers are distinct", "statement": "Two links have equal link_id iff they have the same tx and rx site ids, and two sectors have equal sector_id iff they agree on site, node, position and type, given that site ids are hyphen-free (they are MD5 hex digests).", "quantifier": "all site ids without a hyphen, all node and position numbers", "why_tests_cant": "Injectivity of a string encoding over all strings and numbers.", "anchors": ["terragraph_planner/common/topology_models/link.py: get_link_id_by_site_ids", "terragraph_planner/common/topology_models/sector.py: get_sector_id_by_site_id_and_node_sector_id"]}
{"id": "C64", "title": "Sector statuses stay compatible with the site status", "statement": "An accepted sector status assignment leaves the sector CANDIDATE/PROPOSED/EXISTING on an active site, and equal to the site's status on any other site; it never changes anything but that sector's status.", "quantifier": "every topology, sector and status", "why_tests_cant": "All combinations of statuses and of assignment sequences.", "anchors": ["terragraph_planner/common/topology_models/sector.py: status_type setter, _check_compatible_status_type"]}
{"id": "C65", "title": "Ignored links and sites are excluded from demand reachability", "statement": "With a status filter that rejects UNREACHABLE, the reachable demand sites computed under an ignore set are exactly the copies (id, id_1, ...) of the demand sites connected to a site that accepted links and sites outside the ignore sets join to an accepted POP.", "quantifier": "every topology, filter and ignore sets on which the call returns", "why_tests_cant": "All graphs and all ignore sets; the result is a set of generated names.", "anchors": ["terragraph_planner/optimization/ilp_models/network_optimization.py: _get_reachable_demand_sites_without_constraints"]}
{"id": "C66", "title": "Sectors sharing a node with a proposed sector become proposed", "statement": "When _set_sector_status_in_same_node returns, every sector on a node that held a PROPOSED sector is PROPOSED, every other sector keeps its status, nothing else of the topology changes; it fails exactly when such a node holds an EXISTING or UNAVAILABLE sector or a sector on a site whose status does not admit PROPOSED sectors.", "quantifier": "every topology reached by any sequence of operations", "why_tests_cant": "All node layouts, all status combinations and iteration orders.", "anchors": ["terragraph_planner/optimization/topology_operations.py: _set_sector_status_in_same_node", "terragraph_planner/common/topology_models/sector.py: Sector.status_type"]}
{"id": "C67", "title": "Geohash identifies grid cells", "statement": "lat_lon_to_geo_hash is defined exactly for latitudes in [-90, 90] and longitudes in [-180, 180]; it returns ten characters of its alphabet; two locations have the same geohash exactly when they lie in the same cell of the 2^25 by 2^25 grid over the globe.", "quantifier": "all pairs of coordinates", "why_tests_cant": "A statement about all pairs of real coordinates, including cell boundaries and the extreme coordinates.", "anchors": ["terragraph_planner/common/geos.py: lat_lon_to_geo_hash"]}
{"id": "C68", "title": "Active counts never exceed total counts", "statement": "In the report, for every link type, sector type, node type and site type the number of active components is at most the total number of components.", "quantifier": "every topology", "why_tests_cant": "All topologies. Violated for sites: co-located sites of one type are merged in the total but not in the active count.", "anchors": ["terragraph_planner/optimization/topology_component_counter.py: count_topology_components"]}
{"id": "C69", "title": "CNs with a backup DN", "statement": "active_cns_with_backup_dns is the number of active CNs that can be served by at least two sites, i.e. that have usable links from sectors in operation of two different sites.", "quantifier": "every topology", "why_tests_cant": "All topologies and link orders. Violated: the status of the link is not considered, so an UNAVAILABLE link counts as a backup.", "anchors": ["terragraph_planner/optimization/topology_component_counter.py: count_topology_components"]}
{"id": "C70", "title": "Channel occupancy counts each wireless hop once", "statement": "channel_occupancy_counter[c] is the number of pairs of sites joined by an active wireless link on channel c, each pair counted once; the counts over all channels add up to the number of pairs joined by an active wireless link.", "quantifier": "every topology whose reciprocal links use one channel", "why_tests_cant": "All topologies and link orders.", "anchors": ["terragraph_planner/optimization/topology_component_counter.py: _component_counter", "terragraph_planner/common/topology_models/link.py: Link.link_channel, Link.sorted_site_ids"]}
{"id": "C71", "title": "A stronger signal never yields less capacity", "statement": "The capacity fspl_based_estimation reports for a link never decreases when the net gain of the link grows, all else equal.", "quantifier": "every rate table the loader accepts, all power limits, gains and noise values", "why_tests_cant": "Monotonicity over all reals and tables, through a data-dependent loop. Violated for tables with gaps between levels.", "anchors": ["terragraph_planner/common/rf/link_budget_calculator.py: fspl_based_estimation, adjust_tx_power_with_backoff, get_link_capacity_from_mcs"]}
{"id": "C72", "title": "Capacity is only reported where the signal supports it", "statement": "When fspl_based_estimation reports a positive capacity, the reported level is a row of the table, the capacity is the row's, the power is the maximum less the row's back-off, and the reported SNR meets the row's threshold.", "quantifier": "every rate table the loader accepts, all power limits, gains and noise values", "why_tests_cant": "Soundness over all reals and tables. Violated for tables that list level 0.", "anchors": ["terragraph_planner/common/rf/link_budget_calculator.py: fspl_based_estimation"]}
{"id": "C73", "title": "The minimum MCS level of a device is honoured", "statement": "When a device sets minimum_mcs_level, its rate table has no row below it, and with minimum_tx_power every row leaves that power after back-off.", "quantifier": "every device configuration and rate table file", "why_tests_cant": "Ranges over all configurations; violated when the default table is used, which tests with a file never exercise.", "anchors": ["terragraph_planner/common/configuration/configs.py: SectorParams.__init__", "terragraph_planner/common/data_io/csv_library.py: read_mcs_snr_mbps_map_data"]}
{"id": "C74", "title": "A properly ordered rate table is accepted in any row order", "statement": "A rate table whose level, threshold and throughput grow together (back-off non-decreasing) is accepted by read_mcs_snr_mbps_map_data whatever the order of its rows.", "quantifier": "every properly ordered table and every permutation of its rows", "why_tests_cant": "Ranges over all permutations. Violated: with a constant back-off column only ascending rows are accepted.", "anchors": ["terragraph_planner/common/data_io/csv_library.py: read_mcs_snr_mbps_map_data"]}
{"id": "C75", "title": "Sector-limit report is exact", "statement": "find_sector_limit_violations reports exactly the active DN sectors whose number of active links exceeds the total limit, or whose number of active links to DNs exceeds the DN limit; each reported sector is listed with exactly the sectors it has an active link to.", "quantifier": "every topology reachable by API calls and all limits", "why_tests_cant": "The report is a set computed from the whole link map; tests look at one or two small topologies.", "anchors": ["terragraph_planner/optimization/deployment_rules.py: find_sector_limit_violations, get_sector_connectivity"]}
{"id": "C76", "title": "Status validation accepts exactly the consistent plans", "statement": "validate_topology_status, run before every optimization step, accepts a topology iff every link has a reverse link of the same status, an EXISTING link joins EXISTING sites through EXISTING sectors, a PROPOSED link joins active sites through active sectors, and a CANDIDATE link joins sites and sectors that are not ruled out.", "quantifier": "every topology reachable by API calls", "why_tests_cant": "Acceptance is a statement about all topologies; tests try a handful of inconsistent ones.", "anchors": ["terragraph_planner/optimization/topology_preparation.py: validate_topology_status"]}
{"id": "C77", "title": "Existing equipment survives the final re-orientation", "statement": "readjust_sectors_post_opt, the last step of an optimization, never turns an EXISTING sector or changes its status; in particular a plan accepted by the status validation is still accepted afterwards.", "quantifier": "every topology, every outcome of the orientation search", "why_tests_cant": "Requires all combinations of existing and proposed sectors on a site; the tests only readjust proposed sectors.", "anchors": ["terragraph_planner/optimization/topology_operations.py: readjust_sectors_post_opt"]}
{"id": "C78", "title": "Sectors are activated and given a channel only for active links", "statement": "When sectors are re-assigned after optimization, a sector's status or channel changes only if an active link uses it in the result; it then is PROPOSED and has that link's channel; both sectors of every active link that receives sectors are PROPOSED.", "quantifier": "every topology reachable by API calls, link channel map and geometry", "why_tests_cant": "Depends on the order in which links sharing a sector are visited; tests use one order.", "anchors": ["terragraph_planner/optimization/topology_preparation.py: add_sectors_to_links"]}
{"id": "C79", "title": "Demand sites are kept, pruned and connected as configured", "statement": "When add_demand_to_topology returns, the sites are unchanged, there is at least one demand site, and every demand site carries the configured demand. With manual demand enabled no demand site of the user is dropped; every other demand site is connected to some site. Each demand site is connected exactly to the sites within the connection radius plus the DNs and POPs at the spot or on the roof of a connected CN. With CN demand, every CN has a demand site at its position connected to it and to those DNs and POPs.", "quantifier": "for all topologies reachable through the API, demand parameters, injective location hashes and distance functions", "why_tests_cant": "The result depends on the interplay of three demand sources, pruning and overwriting by hashed position; tests fix one small topology for each source.", "anchors": ["terragraph_planner/optimization/topology_demand.py:33-112"]}
{"id": "C80", "title": "No obstruction between two sites is missed", "statement": "get_all_obstructions reports every raster cell whose centre lies in the rectangle spanned by the two corners (given in any order), lies in the raster's bounding box and satisfies the filter, with that cell's elevation; it reports only cells of the raster that satisfy the filter, none further than half a cell outside the rectangle except on the edge of the raster.", "quantifier": "for all rasters with positive cell size, all corners and filters", "why_tests_cant": "Depends on banker's rounding, clamping and corner order for arbitrary real coordinates; tests use a handful of integer grids.", "anchors": ["terragraph_planner/los/elevation.py:85-128"]}
{"id": "C81", "title": "Rasters are combined cell by cell or rejected", "statement": "Adding or subtracting two elevation rasters with the same projection, shape, resolution and position gives the raster whose value at every coordinate is the sum or difference of the two values there; rasters differing in any of these are rejected with a DataException.", "quantifier": "for all pairs of rasters and coordinates", "why_tests_cant": "Needs every combination of metadata differences and every coordinate.", "anchors": ["terragraph_planner/los/elevation.py:273-318"]}
{"id": "C82", "title": "Resampling keeps the terrain and covers the area", "statement": "set_resolution on a raster without missing values gives every new cell the value a lookup at its centre gave before, keeps the raster's origin, and every coordinate of the bounding box is at most half a new cell from the centre of the new cell it is converted to.", "quantifier": "for all rasters, positive new resolutions and coordinates", "why_tests_cant": "The number of new cells comes from a ceiling of real arithmetic; tests use two resolutions.", "anchors": ["terragraph_planner/los/elevation.py:156-190"]}
{"id": "C83", "title": "A plan keeps the links its traffic uses", "statement": "Every link that carries more than 1e-5 Gbps in the solution of the planning model is selected in the plan extracted from it, so the plan can carry its own traffic.", "quantifier": "for all topologies built through the API, parameters, feasible assignments and pruned flows", "why_tests_cant": "Extraction re-derives links from sites, sectors, polarities and capacities; whether a used link can be lost depends on every solution.", "anchors": ["terragraph_planner/optimization/ilp_models/site_optimization.py", "terragraph_planner/optimization/ilp_models/network_optimization.py"]}
{"id": "C84", "title": "Applying a plan never fails", "statement": "If no CANDIDATE or PROPOSED sector or link is attached to an UNAVAILABLE or UNREACHABLE site, update_topology_with_solution of a plan extracted for the topology raises no exception.", "quantifier": "for all topologies built through the API, parameters, feasible assignments and pruned flows", "why_tests_cant": "The status setters raise on many combinations; tests apply a handful of hand-made decisions.", "anchors": ["terragraph_planner/optimization/topology_optimization.py:531-669", "terragraph_planner/optimization/ilp_models/network_optimization.py"]}
{"id": "C85", "title": "Reported CAPEX stays within the cost of the plan", "statement": "After a plan has been applied, the proposed CAPEX reported for the topology is at most the cost of the plan reported by the optimizer, hence within the budget.", "quantifier": "for all topologies, parameters, feasible assignments and pruned flows", "why_tests_cant": "Two separate pieces of code compute the cost; tests compare them on one network.", "anchors": ["terragraph_planner/optimization/topology_operations.py:469-504", "terragraph_planner/optimization/ilp_models/network_optimization.py"]}
{"id": "C86", "title": "The coverage target is met", "statement": "In every feasible plan of the cost phase the demand sites together receive at least the coverage fraction of the total demand; with maximize_common_bandwidth every connectable demand site receives at least that fraction of the smallest demand.", "quantifier": "every topology input, coverage target and feasible assignment", "why_tests_cant": "All feasible assignments of the optimization problem.", "anchors": ["terragraph_planner/optimization/ilp_models/network_optimization.py: create_coverage_constraint, create_flow_balance_with_shortage"]}
{"id": "C87", "title": "Links already decided by the input stay in the plan", "statement": "A link that is PROPOSED or EXISTING in the input, has positive capacity and sectors in place, and whose ends are PROPOSED or EXISTING sites with no other site at their places, is selected together with its ends in every extracted plan, whether or not it carries traffic.", "quantifier": "every topology input, feasible assignment and extracted plan", "why_tests_cant": "All inputs and all solver answers.", "anchors": ["terragraph_planner/optimization/ilp_models/site_optimization.py: extract_solution, get_link_decisions_from_sectors_and_polarity"]}
{"id": "C88", "title": "The routing in the report respects the network", "statement": "In every feasible routing of the report each connected demand location receives the same bandwidth and the others nothing; sites pass on what they receive; POPs stay within their capacity; only active, not redundant links between active sites carry traffic, within capacity times time share, and the shares at a sector sum to at most 1; with positive bandwidth every connected demand location is joined to a POP by links that carry traffic.", "quantifier": "every topology, set of connected demand locations and feasible assignment", "why_tests_cant": "All solver answers on all topologies.", "anchors": ["terragraph_planner/optimization/ilp_models/flow_optimization.py: MaxFlowNetwork", "terragraph_planner/optimization/ilp_models/network_optimization.py: create_tdm_flow_relationship"]}
{"id": "C89", "title": "Demand sites counted as connectable are exactly those with an open path", "statement": "When maximize_common_bandwidth is set, the demand sites that a best solution of the connectable demand problem counts are exactly those for which there is a path from a POP over usable links (positive capacity, not adversarial, not ruled out, with sectors when wireless) and usable sites (not ruled out and not displaced by an input PROPOSED/EXISTING site at the same place), where undecided wireless links join sites of opposite polarity; no choice of polarities admits more such demand sites.", "quantifier": "all topologies reachable by the API, parameters, adversarial link sets, and optimal solutions", "why_tests_cant": "Unit tests solve a handful of small networks; the claim concerns the exact optimum over all polarity choices on any network.", "anchors": ["terragraph_planner/optimization/ilp_models/network_optimization.py:135-146", "terragraph_planner/optimization/ilp_models/network_optimization.py:1073-1167", "terragraph_planner/optimization/ilp_models/site_optimization.py:73-109", "terragraph_planner/optimization/ilp_models/site_optimization.py:463-497"]}
{"id": "C90", "title": "Connectable demand sites can all be served at once", "statement": "When maximize_common_bandwidth is set, the planning problem has a solution with a positive common bandwidth for all demand sites counted as connectable; otherwise the objective silently degenerates to 0.", "quantifier": "all topologies reachable by the API, parameters, adversarial link sets and solutions of the connectable demand problem", "why_tests_cant": "Two different optimization problems have to agree on what is possible; tests check a few networks on which they do.", "anchors": ["terragraph_planner/optimization/ilp_models/network_optimization.py:648-704", "terragraph_planner/optimization/ilp_models/network_optimization.py:799-819", "terragraph_planner/optimization/ilp_models/site_optimization.py:84-109"]}
{"id": "C91", "title": "Interference phase: traffic only passes sites that are built", "statement": "In every feasible solution of the interference phase, traffic passes only through sites that are built, over links that are chosen.", "quantifier": "every topology input and feasible assignment", "why_tests_cant": "All feasible assignments. Violated: no constraint ties flow to sites in this phase, so wired links carry traffic from candidate POPs.", "anchors": ["terragraph_planner/optimization/ilp_models/interference_optimization.py: setup_problem_skeleton, create_flow_link_relationship"]}
{"id": "C92", "title": "Interference phase: flagged link pairs never share a channel", "statement": "In every feasible solution of the interference phase, two links of one site flagged as violating the deployment angle guidelines, not both EXISTING, are never chosen with their sectors on the same channel; with one channel never both chosen.", "quantifier": "every topology input, list of flagged pairs, number of channels and feasible assignment", "why_tests_cant": "All feasible assignments.", "anchors": ["terragraph_planner/optimization/ilp_models/interference_optimization.py: create_deployment_link_constraints, create_angle_limit_guideline_constraints"]}
{"id": "C93", "title": "Interference phase: decided links and polarities are respected", "statement": "In every feasible solution of the interference phase, EXISTING radio links between built sites are chosen, links that are UNAVAILABLE or UNREACHABLE are not chosen and carry nothing, and chosen links between distribution sites join sites of opposite polarity.", "quantifier": "every topology input and feasible assignment", "why_tests_cant": "All feasible assignments.", "anchors": ["terragraph_planner/optimization/ilp_models/interference_optimization.py: create_decided_link_constraints, create_polarity_link_relationship"]}
{"id": "C94", "title": "Interference phase: radio time is not oversold over the channels", "statement": "In every feasible solution of the interference phase, the time shares of the links sent by a sector sum to at most one over all channels, likewise for the links it hears, and only on the sector's channel.", "quantifier": "every topology input, number of channels and feasible assignment", "why_tests_cant": "All feasible assignments; CN sectors have a variable on the first channel only.", "anchors": ["terragraph_planner/optimization/ilp_models/interference_optimization.py: create_tdm_link_relationship", "terragraph_planner/optimization/ilp_models/network_optimization.py: create_tdm_sector_relationship, create_sector_channel_constraints"]}
{"id": "C95", "title": "The plan of the interference phase is consistent", "statement": "The plan returned by the interference phase selects a wireless link only if it is not ruled out by the input, has positive capacity, and its two sites and two sectors are selected, with the sectors on one channel and DN/POP ends of opposite polarity; both directions of a link are selected together; a selected sector is on a selected site and has one of the configured channels; a selected site was built before the phase and is used; a selected wired link joins selected sites.", "quantifier": "for every topology, every input of the phase and every feasible solution", "why_tests_cant": "Tests look at a few solved networks; the rules must hold for every solution the solver may return.", "anchors": ["terragraph_planner/optimization/ilp_models/interference_optimization.py:1084-1306"]}
{"id": "C96", "title": "Reading the interference plan never fails", "statement": "If the solver finds a solution of the interference problem, reading the plan off it does not raise.", "quantifier": "for every topology, every input of the phase and every feasible solution", "why_tests_cant": "The assertions in the reader guard against solutions the tests never produce.", "anchors": ["terragraph_planner/optimization/ilp_models/interference_optimization.py:1114-1217"]}
{"id": "C97", "title": "The cost reported with an interference plan is the cost of what it builds", "statement": "The cost returned with the plan of the interference phase is the sum of the site costs of selected sites that do not exist yet and of the node cost of each node, on such sites, that has a selected sector.", "quantifier": "for every topology, every input of the phase and every feasible solution", "why_tests_cant": "Tests compare one number for one network where all sectors of a node are used.", "anchors": ["terragraph_planner/optimization/ilp_models/network_optimization.py:735-760", "terragraph_planner/optimization/ilp_models/interference_optimization.py:1260-1292"]}
{"id": "C98", "title": "The topology left by one planning phase is accepted by the next phase", "statement": "If a topology passes the status validation with which every optimization phase starts, then the topology obtained by applying the plan of that phase (cost / coverage, or interference) passes it too, so the next phase starts.", "quantifier": "For all topologies, parameters, feasible assignments, extracted plans and applied results.", "why_tests_cant": "The validation relates the statuses of sites, sectors and both directions of each link after selection, application and clean-up of unreachable parts; tests apply hand-made plans to a few radio-only networks.", "anchors": ["terragraph_planner/optimization/topology_preparation.py:998-1081", "terragraph_planner/optimization/topology_optimization.py:531-669", "terragraph_planner/optimization/ilp_models/site_optimization.py:184-461", "terragraph_planner/optimization/optimization_setup.py:108"]}
{"id": "C99", "title": "The redundancy plan is consistent and only adds to the network", "statement": "In the plan returned by the redundancy model, a selected link joins selected sites, is usable and, if it is a radio link, has both sectors selected on one channel and opposite polarities at its ends; a sector is selected exactly if its site is; DNs and POPs in use stay selected, POPs not in use are not added; and writing the plan back raises no exception.", "quantifier": "every topology, feasible assignment and link pool", "why_tests_cant": "The decisions are assembled from solver variables, carried-over statuses and co-location rules; tests check a few assignments.", "anchors": ["terragraph_planner/optimization/ilp_models/redundancy_optimization.py: extract_redundancy_solution", "terragraph_planner/optimization/topology_optimization.py: update_topology_with_solution"]}
{"id": "C100", "title": "One site in use per location after the redundancy phase", "statement": "If no two sites in use share a location before the redundancy phase, none do after it (a CN gives way to a DN built at its place).", "quantifier": "every topology and feasible assignment", "why_tests_cant": "Interplay of co-location constraint, carried-over CN decisions and immutable statuses over all networks.", "anchors": ["terragraph_planner/optimization/ilp_models/redundancy_optimization.py: create_colocated_site_relationship, extract_redundancy_solution"]}
{"id": "C101", "title": "Computing the redundancy link pool does not raise", "statement": "The maximum flow computations that select candidate links for the redundancy phase satisfy the assertions made on them, so the phase is not aborted.", "quantifier": "every topology and every maximum flow returned", "why_tests_cant": "Needs a flow bound for all graphs; a counterexample needs several candidate POPs.", "anchors": ["terragraph_planner/optimization/ilp_models/redundancy_optimization.py: compute_candidate_edges_for_redundancy"]}
{"id": "C102", "title": "The redundancy problem can be set up for every planned network", "statement": "The link pool computed by the heuristic touches every DN in use, so that the redundancy model accepts it.", "quantifier": "every topology and every maximum flow returned", "why_tests_cant": "Existence of an augmenting walk in the node-split graph for every topology.", "anchors": ["terragraph_planner/optimization/ilp_models/redundancy_optimization.py: compute_candidate_edges_for_redundancy, RedundantNetwork.__init__", "terragraph_planner/optimization/topology_optimization.py: _run_redundancy_step"]}
{"id": "C103", "title": "The disjoint path groups of the report are exact", "statement": "In the report, a demand site is listed as disconnected exactly if none of its sites is joined to a POP of the network in use; as connected to a POP exactly if one of its sites is a POP in use; and as having disjoint paths exactly if it is connected, not at a POP, and keeps its service when any single link between DNs and POPs fails.", "quantifier": "every topology that passes the status validation, has a POP in use and no link sent by a CN; every choice of shortest paths", "why_tests_cant": "A min-cut statement over arbitrary graphs: the code removes one shortest path and tests reachability; that this decides two-connectedness needs both directions of each link to be in use, and an argument over all cuts.", "anchors": ["terragraph_planner/optimization/topology_networkx.py: disjoint_paths", "terragraph_planner/optimization/topology_report.py: analyze"]}
{"id": "C104", "title": "Links of a KML file are loaded once per direction with the attributes of the first mention", "statement": "Reading the links of a KML file succeeds exactly if every non-Ethernet link names known sites or has sites near its ends, all mentions of the same pair of sites agree in status, and the status suits the two sites. The topology then has exactly the links asked for, in both directions except out of a CN, each with status and confidence of the first mention; Ethernet links are ignored.", "quantifier": "every list of loaded sites and every list of raw links, with repeats, both orders, names or places", "why_tests_cant": "Ranges over all lists and orders; which mention wins and when statuses conflict depends on the whole list.", "anchors": ["terragraph_planner/common/data_io/utils.py: map_input_sites_links_from_kml, _add_link_between_sites, extract_topology_from_kml_file"]}
{"id": "C105", "title": "Accepted devices carry the project's radio parameters and stay in range", "statement": "Once a list of devices is accepted for the LOS or optimizer configuration, every device has the project's carrier frequency, thermal noise, noise figure, rain rate and availability and is otherwise the device given; it has at least one node, exactly one if it is a CN device; its sectors span at most 360 degrees; and its sector parameters are within the ranges the sector configuration enforces.", "quantifier": "every device list made by the constructors and every set of project parameters", "why_tests_cant": "Ranges over all devices and parameters. The last part is violated: the project's values are written into the sectors unchecked.", "anchors": ["terragraph_planner/common/configuration/configs.py: SectorParams, DeviceData, _populate_project_level_parameter, LOSParams, OptimizerParams"]}
{"id": "C106", "title": "One site per building is picked, the one with the most LOS", "statement": "When a candidate topology is built with detected sites, for every building exactly one of its sites is picked as client site (and also as DN site if DN deployment is on), it is the one with the most lines of sight on the building, every site keeps exactly the lines of sight found for it, all sites without building are kept, and no site is picked twice.", "quantifier": "all LOS results and all assignments of sites to buildings", "why_tests_cant": "Ranges over all LOS graphs and the history of the greedy choice. Violated in part: the choice weights lines of sight to buildings treated before double.", "anchors": ["terragraph_planner/los/helper.py: pick_best_sites_per_building", "terragraph_planner/los/core.py: build_candidate_topology"]}
{"id": "C107", "title": "Location inference completes input sites and never overrides the user", "statement": "Altitude and location type given by the user are never changed. Without surface elevation nothing is added. With it, each site gets an altitude (surface elevation plus the given height, or the mounting height on rooftops, or the default height of its type), so the computation of confidence never lacks one; with terrain elevation as well, an unknown location becomes rooftop exactly where the surface is at least 2 m above the terrain, else street level.", "quantifier": "all input sites, elevation functions and heights", "why_tests_cant": "All combinations of given and missing fields with arbitrary elevations.", "anchors": ["terragraph_planner/los/helper.py: infer_input_site_location", "terragraph_planner/common/data_io/input_sites_loader.py: InputSitesLoader._construct_sites"]}
{"id": "C108", "title": "Sites detected on rooftops are the requested places of each building", "statement": "The detected sites are exactly the requested places of each building (centre, highest place, at most three of the corners in order), with the building's index as id and at the mounting height above the roof. The highest place is a grid cell inside the outline of greatest elevation, or the centre if no cell is inside. The altitude of a corner is that of a close cell more than 2 m above a neighbour, or that at the corner itself.", "quantifier": "all buildings and elevation grids", "why_tests_cant": "Ranges over all grids and outlines.", "anchors": ["terragraph_planner/los/building_group.py: BuildingGroup.detect_site_candidates", "terragraph_planner/los/building.py: Building.detect_highest, detect_corners"]}
{"id": "C109", "title": "The ellipsoidal validator's confidence is the clearance of the Fresnel zone", "statement": "The confidence that the ellipsoidal LOS validator computes for a pair of sites is between 0 and 1, the same in both directions, and does not depend on the order of the elevation cells. More cells never raise it, a higher threshold leaves it or makes it 0, and a cell at or above the line of sight makes it 0. If it is not 0 it is at least the threshold, and it is the share of the Fresnel radius that is free: the surface does not reach into the ellipsoid with this share of the radius, but into every greater one; if it is 0, the surface obstructs the ellipsoid with the threshold's share.", "quantifier": "all sites, elevation cells, frequencies and thresholds, over the real numbers", "why_tests_cant": "A geometric statement about all surfaces and positions; tests compute single confidences. Violated for links that are not level: the height of the surface is projected onto the ellipse seen from above, so the confidence can be positive but below the threshold, and raising the surface can raise it.", "anchors": ["terragraph_planner/los/ellipsoidal_los_validator.py: EllipsoidalLOSValidator.compute_confidence", "terragraph_planner/los/fresnel_zone.py: FresnelZone"]}
{"id": "C110", "title": "POPs are added at the chosen DNs with faithful copies of their sectors, links and demand", "statement": "After add_duplicate_pop_to_dn_site the topology has all its former sites, sectors and links unchanged and in addition exactly: a CANDIDATE POP at the place of each chosen DN with its device, a CANDIDATE copy of each sector of such a DN, and a CANDIDATE copy of each link with sectors between such a DN and a site that is not a POP, in each direction, with the medium, confidence and link budget of the original; each demand point connected to such a DN is connected to its POP too.", "quantifier": "every topology built through the API, every set of chosen sites and every assignment of ids to the new POPs", "why_tests_cant": "All topologies and choices. Violated: copies of incoming links take medium and confidence from a stale variable (another link), a DN without outgoing links raises UnboundLocalError, and inactive neighbours make it raise.", "anchors": ["terragraph_planner/optimization/ilp_models/pop_proposal_optimization.py: add_duplicate_pop_to_dn_site", "terragraph_planner/optimization/topology_demand.py: connect_demand_to_colocated_sites"]}
{"id": "C111", "title": "The optimization is set up exactly for usable inputs", "statement": "With capacities of at least 0, constructing an optimization problem raises no exception exactly if the statuses are valid, every demand point has a demand of at least 0, at least one site and connections only to sites of the topology, the oversubscription can be divided by, no link goes from a site to itself, some POP can send (a link of positive capacity to a site, or a demand point connected directly), and some site with demand can receive (a link of positive capacity, or it is a POP with capacity). If only the last two fail, OptimizerException is raised.", "quantifier": "every topology built through the API and all parameters", "why_tests_cant": "All topologies.", "anchors": ["terragraph_planner/optimization/ilp_models/optimization_setup.py: OptimizationSetup.__init__", "terragraph_planner/optimization/ilp_models/network_optimization.py: check_pop_feasibility, check_demand_feasibility"]}
{"id": "C112", "title": "Settings of a configuration take effect", "statement": "If a number or a string is given for a parameter in a dictionary, in whatever case, at the top level or one level below a key that is no parameter, and nothing else is given for it, then the object read from the dictionary has it as the value of the attribute of that name. If nothing but None is given, the attribute has the default value. A name given for an enum is the member of that name, without regard to case.", "quantifier": "every class of configuration objects and every dictionary whose keys differ by more than case", "why_tests_cant": "All dictionaries, parameters and spellings of keys.", "anchors": ["terragraph_planner/common/configuration/configs.py: ConfigParser.from_dict"]}
{"id": "C113", "title": "Configuration files are read without ignoring keys", "statement": "The typo check accepts exactly the files whose keys are keys of the template at the same place, up to case and surrounding blanks. Each key of the template is a parameter and the template shows its default. In a file that is accepted each number, string and name of an enum member takes effect, and a parameter that is absent or left blank has its default.", "quantifier": "every content that a parser of YAML or JSON returns", "why_tests_cant": "All files. Violated: a key with a blank around it and a section name in small letters pass the typo check but are ignored, FINANCIAL: 5 is ignored, and a device without SECTOR_PARAMS is an error although the template says it has defaults.", "anchors": ["terragraph_planner/common/configuration/utils.py: _detect_typo, struct_objects_from_file", "terragraph_planner/data/template.yaml"]}
{"id": "C114", "title": "Configuration objects accept exactly the documented ranges", "statement": "With arguments of the annotated types, the constructor of a configuration object raises no exception exactly if all values, given or by default, are in the documented ranges: for sectors, devices (a SKU, cost at least 0, one node if a CN, sectors of at most 360 degrees in all), site detection, file names, LOS and optimizer parameters (at least one device, SKUs that differ by more than case).", "quantifier": "every class of configuration objects and all arguments of the annotated types", "why_tests_cant": "All combinations of some hundred parameters.", "anchors": ["terragraph_planner/common/configuration/configs.py: SectorParams, DeviceData, SiteDetectionParams, GISDataParams, LOSParams, OptimizerParams, SystemParams: __init__"]}
{"id": "C115", "title": "The SINR of a link accounts for exactly the links that disturb it", "statement": "After analyze_interference every wireless link in use that receives a signal has as SINR its signal level less noise and interference. The interference is the sum, over the links (in use or not) that lead from another sector in use into its receiving sector, on a channel and with polarities that let it be heard, of the average power that the links in use of that other sector put onto it. Links without a signal have no SINR, no other measurement changes, and the analysis raises no exception.", "quantifier": "every topology built through the API whose links have sectors on their ends, every antenna gain, deviation and device, and all measurements before the call", "why_tests_cant": "All topologies, channels, polarities and statuses. Violated: a client node in use that no link in use serves makes the analysis stop with a KeyError.", "anchors": ["terragraph_planner/optimization/topology_interference.py: analyze_interference, compute_link_rsl_map, compute_link_net_gain_map, _calculate_net_gain_on_rx_links, _get_cn_polarities, _compatible_polarity, _compatible_channel"]}
{"id": "C116", "title": "Transmit power control ends with consistent measurements and allowed powers", "statement": "After update_link_caps_with_sinr every wireless link has the best level its SINR supports and the capacity of that level. In a link in use the signal is power plus gain, the SNR is signal less noise, and the SINR accounts for the final powers of all links. The power is at least the minimum of the device, at most that of the full-power estimate, and backs off as the reported level requires. A link that could be used is not switched off, and all measurements are numbers. Fewer than one iteration is refused.", "quantifier": "every topology built through the API whose links have sectors on their ends, every antenna gain, deviation and device, and every number of iterations", "why_tests_cant": "All topologies and numbers of rounds. Violated: a minimum power can lift the SINR to a level whose back-off the power does not leave room for; two links that disturb each other are both switched off for good in the first round; a link in use without sectors ends with NaN.", "anchors": ["terragraph_planner/optimization/topology_operations.py: update_link_caps_with_sinr", "terragraph_planner/optimization/topology_preparation.py: add_link_capacities"]}
{"id": "C117", "title": "Report routing keeps exactly the links of the best routes", "statement": "When the report is asked for a routing type and the network has a POP in use, every demand site that can be reached from a POP gets one route: with SHORTEST_PATH one with the fewest hops, with MCS_COST_PATH one of least total link cost (1 from MCS 9, 3 for 4 to 8, 15 for 2 and 3), with DPA_PATH one that starts at a nearest POP, stays with sites for which that POP is nearest, and costs no more than a shortest route from there nor than any route along sites that have only that POP as nearest. A link is marked redundant if it is on no such route in either direction; no other link is touched, and nothing else of the topology changes. A demand site that could be reached before can be reached along links that are not redundant. (The last part fails if an earlier report has already marked links, since marks are never taken away.)", "quantifier": "for every topology that API calls can build, every demand site, every routing type, every MCS level of every link, and every result networkx may choose among equally good paths", "why_tests_cant": "There are unboundedly many networks, ties between paths are broken by networkx in an order tests do not control, and the DPA zones depend on all shortest paths at once; tests look at a few fixed networks.", "anchors": ["terragraph_planner/optimization/topology_networkx.py:39-56", "terragraph_planner/optimization/topology_networkx.py:287-366", "terragraph_planner/optimization/topology_report.py:106-117", "terragraph_planner/optimization/topology_report.py:260-272"]}
{"id": "C118", "title": "The reported utilization of links is right and listed once per pair", "statement": "The table of link utilizations has an entry for each link in use: the percentage of its capacity that the flow takes. Of two opposite links of which one is hardly used (up to 0.00001 percent) only the larger one is listed, so that there is one entry per pair of sites with a link in use. The utilization stored with each link is right up to 0.00001 percent, and with the flow of the report no entry is below 0 or above 100.", "quantifier": "every topology built through the API and every flow; for the range every feasible solution of the flow problem of the report", "why_tests_cant": "All topologies, capacities and flows. Violated: loops are removed from the flow up to 0.00001 units of flow, which can be more than 0.00001 percent, and then both directions are listed.", "anchors": ["terragraph_planner/optimization/topology_report.py:200-258", "terragraph_planner/optimization/topology_report.py:275-300"]}
{"id": "C119", "title": "The statistics of the report describe the network", "statement": "For a plan with a POP in use get_topology_metrics makes a report. In it the links per sector are average, maximum and minimum, over the DN sectors in use, of the number of wireless backhaul links in use at the sector (in or out) and of access links in use that start there, a link and its reverse counted once. The distances are those of the wireless links in use. Each pair of sites with wireless links in use counts once among the MCS levels.", "quantifier": "every topology built through the API, every oversubscription, utilization, failure analysis, availability and MCS level", "why_tests_cant": "All topologies. Violated: a wired link in use makes the report stop with an AssertionError, and a plan whose POPs serve all demand themselves makes it stop with a ZeroDivisionError.", "anchors": ["terragraph_planner/optimization/topology_report.py:313-518"]}
{"id": "C120", "title": "The report's failure, demand and availability statistics describe the plan", "statement": "For a topology whose CNs send nothing and whose links join different sites, the report's statistics about failures describe the following exactly: for each POP or DN in use, how many connected demand sites lose service if that site fails (the reported minimum, maximum and average are those of these numbers); and, when all links in use are wireless, the same for each pair of sites joined by a wireless backhaul link in use. The numbers of demand sites, of demand sites without service, of those at a POP and of those with two disjoint routes are the sizes of those sets, the percentage with disjoint routes lies between 0 and 100, and the total demand is the sum over the demand sites. The reported availability figures are the average and the percentiles of the availabilities of the connected demand sites, at most 100 and at least 0, and all are 0 when no demand site is connected.", "quantifier": "all topologies reachable by any sequence of operations; all availability functions", "why_tests_cant": "the sets range over every single failure of every topology; tests check one small topology", "anchors": ["optimization/topology_report.py:313-590", "optimization/topology_networkx.py:125-220", "optimization/topology_networkx.py:369-449"]}
{"id": "C121", "title": "The search points the radios of a site without overlap so that they see the most links", "statement": "Whatever limits, rules and channels are given, the sectors that find_best_sectors returns never overlap: every node points to a multiple of three degrees with its sectors side by side, there are at most as many nodes as the device has, and any two sectors are at least a scan range apart, also across north. The result is the best one: among all ways to point the nodes without overlap and within the sector limits, it sees the most links and, among those that see as many, has the least weighted squared deviation; the search raises exactly when the nodes cannot be pointed within the limits.", "quantifier": "all bearings and distances of neighbours, all devices, limits and weights", "why_tests_cant": "optimality ranges over all placements of all nodes; the dynamic program, its early exits and its penalty constants are only right by an argument about all of them", "anchors": ["optimization/topology_preparation.py:583-629", "optimization/topology_preparation.py:632-995"]}
{"id": "C122", "title": "Creating sectors before the optimization works for every configured device", "statement": "For every device that the configuration accepts and every site with neighbours, the search for the orientation of the radios before the optimization (no limits, no pair rules) returns an orientation and does not raise.", "quantifier": "all devices, all numbers and bearings of neighbours", "why_tests_cant": "whether the nodes fit on the grid of pointing directions is an arithmetic condition over all devices", "anchors": ["optimization/topology_preparation.py:632-995", "common/configuration/configs.py:286-332", "common/constants.py:9-12"]}
{"id": "C123", "title": "Sectors that the planner created pass its own check", "statement": "If the sectors of a topology have been created once (create_dn_sectors for distribution sites and POPs, create_cn_sectors for client sites), creating them again raises no error and changes nothing: sites whose sectors the planner created pass validate_site_sectors, and sites for which none were found get none again.", "quantifier": "every topology built through the API, every device whose sectors do not make a full turn, every set of neighbours", "why_tests_cant": "All bearings and devices; the check orders the azimuths around a circular mean, which goes wrong only for some bearings near north. Violated: a node of three or more sectors that lies across north is ordered wrongly and the second creation raises OptimizerException.", "anchors": ["terragraph_planner/optimization/topology_preparation.py:154-253", "terragraph_planner/optimization/topology_preparation.py:370-488"]}
{"id": "C124", "title": "Creating sectors adds exactly the orientation that was found and touches nothing else", "statement": "After a successful create_dn_sectors (create_cn_sectors) every sector that was there before is unchanged, and the new sectors are exactly these: for every site that is not (is) a client site and had no DN (CN) sector, the sector at position j of node i has the azimuth that the search found for it, status CANDIDATE and no channel. Sites and links stay as they were.", "quantifier": "every topology built through the API, every result of the searches", "why_tests_cant": "All topologies and searches; sectors of one site must not influence another, and existing sectors must survive.", "anchors": ["terragraph_planner/optimization/topology_preparation.py:154-253"]}
{"id": "C125", "title": "Sectors given by the user are checked for shape and overlap", "statement": "Sectors of a site that pass validate_site_sectors are all on one site, have different positions within their node, form at most as many nodes as the device has, and every node has exactly the number of sectors of the device. Two sectors of different nodes are at least a scan range apart and neighbouring sectors of one node exactly a scan range (up to 0.01 degree). With one sector per node the check passes exactly when this holds.", "quantifier": "all lists of sectors, all azimuths, all devices, whatever the circular mean is", "why_tests_cant": "All azimuths around the circle; tests use a few.", "anchors": ["terragraph_planner/optimization/topology_preparation.py:370-488"]}
{"id": "C126", "title": "The radio of a client site points to its links", "statement": "create_cn_sectors points the radio of a client site with one neighbour to that neighbour, up to three degrees. With several neighbours the radio sees all links whenever some direction lets it see all of them.", "quantifier": "all bearings of neighbours, all devices with one node (which the configuration forces for client sites)", "why_tests_cant": "All bearings; the computation does not treat north specially. Violated: with links on both sides of north the search does not see that they are close together and picks a direction that leaves a link out.", "anchors": ["terragraph_planner/optimization/topology_preparation.py:205-253", "terragraph_planner/optimization/topology_preparation.py:521-580"]}
{"id": "C127", "title": "Distances between sites are lengths of great-circle arcs", "statement": "haversine_distance gives the length of the arc between two places on a sphere of the Earth's radius. It is symmetric, satisfies the triangle inequality, is at most half the circumference, and is zero only for the same place; along a meridian it is proportional to the difference in latitude.", "quantifier": "all pairs and triples of coordinates, including poles and both sides of the antimeridian", "why_tests_cant": "A continuum of coordinates; a formula can be right at the few tested points and wrong across the antimeridian or the poles.", "anchors": ["terragraph_planner/common/geos.py: haversine_distance"]}
{"id": "C128", "title": "Bearing, distance and translation agree with each other", "statement": "translate_point moves along the great circle that starts with the given bearing. The point it reaches has the given distance and bearing according to haversine_distance and bearing_in_degrees, and going from one site with the computed bearing for the computed distance leads to the other site. Bearings are in [0, 360) and unique.", "quantifier": "all coordinates off the poles, all bearings, all distances below half the circumference", "why_tests_cant": "Three independent trigonometric formulas have to fit together everywhere.", "anchors": ["terragraph_planner/common/geos.py: translate_point", "terragraph_planner/common/geos.py: bearing_in_degrees", "terragraph_planner/common/geos.py: haversine_distance"]}
{"id": "C129", "title": "The azimuth at the receiving end of a link points to the transmitting end", "statement": "Link.rx_beam_azimuth is the bearing from the receiving to the transmitting site. Violated: it is computed as the opposite of the bearing at the transmitting site; on a sphere the two differ, by at most the difference in longitude.", "quantifier": "all pairs of sites", "why_tests_cant": "Tests use short links, for which the two agree up to rounding; how far they can be apart is a question about all coordinates.", "anchors": ["terragraph_planner/common/topology_models/link.py: _update_azimuth", "terragraph_planner/common/geos.py: bearing_in_degrees"]}
{"id": "C130", "title": "The angle between two links is computed on the safe side", "statement": "law_of_cosines_utm is the angle between the lines to two points in the plane. law_of_cosines_spherical is symmetric in the two links, fails exactly if a link has both ends in the same place, gives the ratio of the longer to the shorter link and the angle of the flat triangle with the same side lengths; this angle never exceeds the angle between the directions of the links at the common site, so that no pair of links below the limit of a deployment rule is overlooked.", "quantifier": "all triples of places", "why_tests_cant": "A comparison of spherical and flat triangles over all side lengths.", "anchors": ["terragraph_planner/common/geos.py: _law_of_cosines", "terragraph_planner/common/geos.py: law_of_cosines_spherical", "terragraph_planner/common/geos.py: law_of_cosines_utm", "terragraph_planner/optimization/deployment_rules.py: find_angle_violating_link_pairs"]}
{"id": "C131", "title": "Length and elevation of links", "statement": "Link.distance is the hypotenuse over the distance on the ground and the difference in altitude, the same in both directions. Link.el_dev never raises: it is the elevation angle of the link, the opposite for the opposite direction, and zero if an altitude is unknown or the ends coincide.", "quantifier": "all sites with and without altitude", "why_tests_cant": "math.asin raises for arguments beyond 1; that the argument stays in range is a statement about all coordinates and altitudes.", "anchors": ["terragraph_planner/common/topology_models/link.py: distance, el_dev"]}
{"id": "C132", "title": "Neighbouring points of the demand grid are at most the grid spacing apart", "statement": "With the steps of grid_deltas, neighbours in a column of the uniform demand grid are exactly the spacing apart and neighbours in a row at most the spacing. Violated in the southern hemisphere: the step in longitude is computed at the southern edge and is too large for rows closer to the equator.", "quantifier": "all positions of the south-western corner and all spacings", "why_tests_cant": "The error grows with the extent of the area and only shows south of the equator; tests use small areas in the north.", "anchors": ["terragraph_planner/common/geos.py: grid_deltas", "terragraph_planner/optimization/topology_demand.py: _add_uniform_demand_sites"]}
{"id": "C133", "title": "The site table of the report", "statement": "The table of sites (site.csv) can be made for every topology and has exactly one row per site. A row gives the cost of a site of its type, the numbers of different nodes and sectors in use at the site, the number of sites joined to it by wireless links in use (a link and its reverse counting once), the least number of hops from a POP in use along links and sites in use or 'disconnected', and the sums of the flows over the links in use that start or end there. Over all rows outgoing and incoming flow add up to the same number, and the costs in the table add up to the total cost reported.", "quantifier": "for all topologies built by the API, costs and flows", "why_tests_cant": "Tests check a few rows of one small network; counts of distinct things, shortest paths and sums over all links need an argument over every topology.", "anchors": ["terragraph_planner/optimization/topology_report.py:726-831"]}
{"id": "C134", "title": "The sector table of the report", "statement": "The table of sectors (sector.csv) has exactly one row per sector in use. It gives the assigned channel, the numbers of backhaul and of access links in use from or to the sector (a link and its reverse counting once), and marks exactly the DN sectors with more links in use than allowed. It can be made exactly if each wireless link in use joins two sectors of the network and a sector is in use.", "quantifier": "for all topologies built by the API and limits", "why_tests_cant": "A test sees single networks, not when the table cannot be made, nor that marks and counts agree with the limits for each sector.", "anchors": ["terragraph_planner/optimization/topology_report.py:653-723", "terragraph_planner/optimization/deployment_rules.py:123-165"]}
{"id": "C135", "title": "The link table of the report", "statement": "The table of links (link.csv) has exactly one row per link. It tells wired links, links with sectors and links without sectors apart, gives the channel of links in use, and marks exactly the links that, themselves or in reverse, are one of two links in use from a site that break the rules on angles, and exactly the links in use from a sector with more links than allowed.", "quantifier": "for all topologies built by the API, limits and angles", "why_tests_cant": "The marks depend on all pairs of links at a site; tests only try a few arrangements.", "anchors": ["terragraph_planner/optimization/topology_report.py:593-650", "terragraph_planner/optimization/deployment_rules.py:104-165"]}
{"id": "C136", "title": "The tables of the report exist whenever its statistics do", "statement": "If the statistics of the report can be computed, making the three tables raises no exception, and each table lists exactly its components: all links if one is in use, all sites, the sectors in use.", "quantifier": "for all topologies built by the API and inputs of the report", "why_tests_cant": "Each table has its own way to raise (missing sectors, different channels, no rows); tests do not combine them.", "anchors": ["terragraph_planner/optimization/topology_report.py:156-209"]}
{"id": "C137", "title": "The KML file shows every component once, where it belongs", "statement": "In the KML file of a topology, the folder of a status and type lists exactly the sites (links) of that status and type, each once, with its name, place, altitude mode, status, type, device and subscribers (or ends, channel); sites are in the order of their names, links between the same places follow each other with the busiest first. Demand sites are listed once with place, demand and shade by thirds of the greatest demand; the lines from demand sites lead exactly to the sites in use that serve them. There is a folder for each status that occurs, none is empty, and what is proposed or unreachable is visible. The file is written exactly if the ends of every link both have or both lack an altitude, the sectors of each link in use share a channel, and demands can be shaded.", "quantifier": "for all topologies built by the API, names, utilizations and demands", "why_tests_cant": "Grouping, ordering and escaping interact over arbitrary numbers of components; tests compare small files.", "anchors": ["terragraph_planner/common/data_io/topology_serializer.py:137-258", "terragraph_planner/common/data_io/topology_serializer.py:261-378", "terragraph_planner/common/data_io/topology_serializer.py:389-466"]}
{"id": "C138", "title": "The KML file is well formed and uses styles that it defines", "statement": "Whatever the names of topology, sites and devices, the KML file can be parsed as XML and each text is read as it was; every placemark refers to a style that the file defines.", "quantifier": "for all topologies built by the API, names, utilizations and demands", "why_tests_cant": "Only unusual names (with & or <), unreachable POPs, busy links out of use or negative demands show the failures.", "anchors": ["terragraph_planner/common/data_io/topology_serializer.py:137-160", "terragraph_planner/common/data_io/topology_serializer.py:261-293", "terragraph_planner/common/data_io/topology_serializer.py:487-535"]}
{"id": "C139", "title": "A written KML file can be loaded again", "statement": "The KML file written for a topology can be given back as candidate topology: it is loaded without exception, with the same sites, the same links and the same demand sites.", "quantifier": "for all topologies built by the API whose sites have different names and devices of the device list", "why_tests_cant": "Needs writer, XML reader and loader together on arbitrary topologies; unit tests use hand-made files.", "anchors": ["terragraph_planner/common/data_io/topology_serializer.py:137-160", "terragraph_planner/common/data_io/kml_library.py:78-245", "terragraph_planner/common/data_io/utils.py:169-228", "terragraph_planner/common/data_io/input_sites_loader.py:132-204"]}
{"id": "C140", "title": "Links of a KML file that do not name their sites", "statement": "A link of a KML file joins the two sites it names; if it does not name them, it joins the sites at its ends.", "quantifier": "for all KML files and device lists", "why_tests_cant": "The fallback needs a missing name; whether it is reachable at all is a question about every input.", "anchors": ["terragraph_planner/common/data_io/kml_library.py:124-160", "terragraph_planner/common/data_io/utils.py:169-208"]}
{"id": "C141", "title": "Latitudes and longitudes in degrees, minutes and seconds", "statement": "A latitude or longitude given as text is accepted exactly if it is a number of degrees and a direction, or degrees, minutes, seconds and a direction; the value is the angle it denotes, negative for south and west; anything else raises a DataException.", "quantifier": "for all texts", "why_tests_cant": "The texts are arbitrary; tests try a few well formed ones.", "anchors": ["terragraph_planner/common/data_io/csv_library.py:37-62"]}
{"id": "C142", "title": "Which headers of a site file are accepted", "statement": "The header of a site CSV file is accepted exactly if every needed attribute has a column, under one of its documented names in any capitalisation, and no attribute has two columns; otherwise a DataException is raised.", "quantifier": "for all headers", "why_tests_cant": "Headers are arbitrary; tests try single missing or repeated names.", "anchors": ["terragraph_planner/common/data_io/csv_library.py:93-134", "terragraph_planner/common/data_io/data_key.py:80-173"]}
{"id": "C143", "title": "The sites of a CSV file are those that its rows say", "statement": "Every row of a site CSV file becomes one site, with the place, name, type, device, building, altitude, height and number of subscribers of the row; optional entries may be left empty; rows without place are skipped. A row that names no device stands for all devices of its type.", "quantifier": "for all tables and device lists", "why_tests_cant": "The reading of a cell depends on all other cells of its column; tests use small clean files.", "anchors": ["terragraph_planner/common/data_io/csv_library.py:85-213", "terragraph_planner/common/data_io/input_sites_loader.py:132-204", "docs/runbook/Input_Files.md:83-110", "docs/runbook/Features.md:40-60"]}
{"id": "C144", "title": "The links of a CSV file are those that its rows say", "statement": "A link CSV file is read as the list of the links it says: those of the column with arrows if there is one; otherwise those between two sites, in both directions; otherwise those from transmitter to receiver. It is accepted exactly if one of these sets of columns is there, every text with an arrow has exactly one, and no link occurs twice.", "quantifier": "for all tables", "why_tests_cant": "The choice of columns and the splitting are over arbitrary texts; tests try one file of each kind.", "anchors": ["terragraph_planner/common/data_io/csv_library.py:216-261", "terragraph_planner/common/data_io/data_key.py:206-307", "docs/runbook/Input_Files.md:196-222"]}
{"id": "C145", "title": "A longer link never has a stronger signal", "statement": "For every radio that the configuration accepts, the net gain between two antennas can be computed for every distance up to the 10 km the planner searches, and does not grow with the distance; so the range computed for a pair of devices separates the distances with a usable signal from those without.", "quantifier": "for all radios, antenna patterns, directions and distances up to 10 km", "why_tests_cant": "The rain loss is a quotient of powers whose monotonicity has to hold over a continuum of distances, rain rates and frequencies; tests evaluate a few points.", "anchors": ["terragraph_planner/common/rf/link_budget_calculator.py:39-46", "terragraph_planner/common/rf/link_budget_calculator.py:207-330", "terragraph_planner/los/helper.py:310-488"]}
{"id": "C146", "title": "Rain and availability cost signal, oxygen costs what the table says", "statement": "More rain, or asking for more availability, never means less rain loss; the oxygen loss is the one of the table, interpolated between its frequencies.", "quantifier": "for all distances, rain rates, availabilities and frequencies", "why_tests_cant": "Monotonicity over real parameters; tests evaluate a few points.", "anchors": ["terragraph_planner/common/rf/link_budget_calculator.py:207-269", "terragraph_planner/common/constants.py:28-50"]}
{"id": "C147", "title": "The gain in a direction is the entry of the pattern for that direction", "statement": "With an antenna pattern, the gain is the boresight gain plus the horizontal and vertical entry of the closest whole degrees; with a scan pattern, the boresight gain reduced by how far the entry of the closest angles is below the greatest one; without pattern, the boresight gain.", "quantifier": "for all patterns and all directions", "why_tests_cant": "Negative angles, rounding and wrap-around at 0 and 360 degrees have to be right for every direction; tests try a few.", "anchors": ["terragraph_planner/common/rf/link_budget_calculator.py:49-204"]}
{"id": "C148", "title": "An antenna pattern file is read as the losses it lists", "statement": "Every antenna of the file gets, for every degree, minus the loss of the row for that degree in its horizontal and vertical block; a file that does not list 360 losses for both is rejected.", "quantifier": "for all files", "why_tests_cant": "Files have any number of antennas with any further lines between them; tests read one file.", "anchors": ["terragraph_planner/common/data_io/csv_library.py:270-337", "docs/runbook/Features.md:36"]}
{"id": "C149", "title": "A rate table file is read as the numbers it lists", "statement": "A rate table file is accepted exactly if it has one column for each of mcs, snr, mbps and at most one for tx_backoff, all entries are numbers, and the levels are ordered alike in all columns; the table has the numbers of the file, back-off 0 if there is no such column. Blank lines do not matter.", "quantifier": "for all files and sector parameters", "why_tests_cant": "Columns may be in any order with additions to their names; tests read a few files.", "anchors": ["terragraph_planner/common/data_io/csv_library.py:363-497", "docs/runbook/Features.md:38"]}
{"id": "C150", "title": "Every polygon drawn in a KML file is read as one polygon", "statement": "The polygons for boundary, buildings and exclusion zones are the outlines of the polygons drawn in the file, each once and in order; a boundary file is accepted exactly if it has one polygon.", "quantifier": "for all KML documents", "why_tests_cant": "Holes, collections and other geometries combine in any number and order; tests read a few files.", "anchors": ["terragraph_planner/common/data_io/kml_library.py:248-315"]}
{"id": "C151", "title": "Geographic data are accepted exactly if they are sound", "statement": "The data are accepted exactly if the boundary is valid, elevation data and buildings have a known projection in metres with cells of 15 cm to 35 m, a valid vertical system if any, and a collection time, if any, within the last 20 years; otherwise a DataException tells what is wrong.", "quantifier": "for all data files and combinations of files", "why_tests_cant": "The faults of all files are collected over several loaders; tests check the rules one at a time on small mocks.", "anchors": ["terragraph_planner/common/data_io/elevation_rules.py:23-138", "terragraph_planner/common/data_io/shared_rules.py:16-65", "terragraph_planner/common/data_io/elevation_loader.py:84-173", "terragraph_planner/common/data_io/building_group_loader.py:160-179", "terragraph_planner/los/core.py:168-247"]}
{"id": "C152", "title": "Surface is terrain plus height", "statement": "If surface data are missing, but terrain and height data are given, the surface at every coordinate of the area is their sum; if terrain data are missing, but surface and height data are given, the terrain is the difference. This also holds for data of different resolutions and where values are missing.", "quantifier": "for all rasters", "why_tests_cant": "Rasters of any two resolutions have to be brought onto the same grid; tests use one pair that happens to fit.", "anchors": ["terragraph_planner/los/core.py:208-236", "terragraph_planner/los/helper.py:965-975", "terragraph_planner/los/elevation.py:156-190", "terragraph_planner/los/elevation.py:273-318", "docs/runbook/Input_Files.md:34-42"]}
{"id": "C153", "title": "An archive with one shape file is read", "statement": "A zip archive is accepted exactly if its only shape file is at the top level and nothing else is in a folder, except in the folder that macOS adds; then this shape file is opened.", "quantifier": "for all lists of names", "why_tests_cant": "Names with folders, dots and extensions in any combination; tests try a few lists.", "anchors": ["terragraph_planner/common/data_io/building_group_loader.py:43-74", "terragraph_planner/common/data_io/building_group_rules.py:51-88"]}
{"id": "C154", "title": "Buildings are kept as far as they are within the boundary", "statement": "Every building that is kept is a valid polygon of more than 50 square metres within the boundary, and every place of a valid building within the boundary belongs to a piece of the building that is kept unless it is too small.", "quantifier": "for all boundaries and buildings", "why_tests_cant": "The pieces arise from arbitrary intersections; tests cut a few rectangles.", "anchors": ["terragraph_planner/los/building_group.py:50-126"]}
{"id": "C155", "title": "The corners of a building are its vertices with the wanted angle", "statement": "With a largest corner angle, the corners are the vertices whose angle between the two edges there is at least 30 degrees and at most that angle, each once, also at the first and last vertex; if there are none, the first vertex. Without a largest angle all vertices are corners.", "quantifier": "for all polygons and angles", "why_tests_cant": "Needs an argument about the wrap-around for any number of vertices; tests use a few polygons.", "anchors": ["terragraph_planner/los/building.py:22-64", "terragraph_planner/los/building.py:149-166"]}
{"id": "C156", "title": "A planning run keeps the input", "statement": "Whatever the solver answers, a planning run ends with a plan or an exception; in both cases every site, link and demand site of the input is still there with the attributes it had except status, polarity and sectors; EXISTING and UNAVAILABLE are neither left nor entered; new are at most POPs at the places of DNs and links at them, and only if extra POPs are asked for.", "quantifier": "for all topologies, parameters and answers of the solver", "why_tests_cant": "Needs all orders of outcomes of five phases on all topologies; tests mock single phases on a few topologies.", "anchors": ["terragraph_planner/optimization/topology_optimization.py:154-204", "terragraph_planner/optimization/topology_optimization.py:207-528", "terragraph_planner/optimization/ilp_models/pop_proposal_optimization.py:29-138"]}
{"id": "C157", "title": "The plan has the highest coverage for which there is one", "statement": "The minimum cost step tries the coverages 100, 90, ..., 50 percent in this order and applies the plan for the first one for which a plan comes out; that plan serves at least half of the demand.", "quantifier": "for all topologies, parameters and answers of the solver", "why_tests_cant": "Whether a plan comes out depends on the solver for each coverage; tests see one path through the loop.", "anchors": ["terragraph_planner/optimization/topology_optimization.py:207-230", "terragraph_planner/optimization/ilp_models/cost_optimization.py:54-118"]}
{"id": "C158", "title": "A run that gives up tells that no coverage can be met", "statement": "If the minimum cost step ends with the message that the problem is infeasible, no assignment satisfies the constraints with a coverage of 50 percent or more, provided the solver decides the last problem; a time-out is reported exactly if the solver timed out on the last problem.", "quantifier": "for all topologies and parameters, and all solvers that decide the last problem", "why_tests_cant": "A statement that no assignment exists for any of infinitely many coverages.", "anchors": ["terragraph_planner/optimization/topology_optimization.py:207-258", "terragraph_planner/optimization/ilp_models/cost_optimization.py:54-118"]}
{"id": "C159", "title": "\"Insufficient number of POPs\" is reported if POPs are the reason", "statement": "If the run ends with \"Insufficient number of POPs\" the POPs cannot carry half of the demand planned for, and if they cannot, this is the message.", "quantifier": "for all topologies and parameters", "why_tests_cant": "Depends on oversubscription and on the number of sites of each demand site; tests use the defaults.", "anchors": ["terragraph_planner/optimization/topology_optimization.py:240-258", "terragraph_planner/optimization/ilp_models/cost_optimization.py:69-84"]}
{"id": "C160", "title": "The result of a run is connected", "statement": "In the result of a run that succeeds no link is PROPOSED at a CANDIDATE site, and every PROPOSED site is connected to an active POP over active links. Coverage and redundancy steps that find no plan leave the plan of the cost step.", "quantifier": "for all topologies, parameters and answers of the solver", "why_tests_cant": "A path has to exist for every site after any sequence of plans has been applied; tests check single networks.", "anchors": ["terragraph_planner/optimization/topology_optimization.py:154-204", "terragraph_planner/optimization/topology_optimization.py:308-479", "terragraph_planner/optimization/topology_optimization.py:633-669"]}
{"id": "C161", "title": "The maximum number of hops holds in the plan", "statement": "In the result of a planning run every PROPOSED site that was a CANDIDATE can be reached from a POP within the maximum number of hops, and the sites that cannot be, with their links, are UNREACHABLE.", "quantifier": "for all topologies, parameters and answers of the solver", "why_tests_cant": "Reachability within a limit on arbitrary networks, after any plans; tests look at single networks after the marking step only.", "anchors": ["terragraph_planner/optimization/topology_optimization.py:154-204", "terragraph_planner/optimization/topology_preparation.py:43-104", "terragraph_planner/common/configuration/configs.py:559"]}
{"id": "C162", "title": "The order of the input does not matter", "statement": "Two topologies with the same sites, sectors, links and demand sites, added in different orders, get the same plan.", "quantifier": "for all pairs of topologies with the same contents and all solvers", "why_tests_cant": "All permutations of all inputs.", "anchors": ["terragraph_planner/optimization/topology_optimization.py:154-165", "terragraph_planner/common/topology_models/topology.py:361-372"]}
{"id": "C163", "title": "The links of the final plan fit together", "statement": "In the result of a planning run every PROPOSED radio link has a positive capacity and joins two active sites, of opposite polarity unless one is a CN, and its reverse is active as well.", "quantifier": "for all topologies, parameters and answers of the solver that satisfy the constraints", "why_tests_cant": "The plan passes through four problems and two clean-ups; tests check single steps with few sites.", "anchors": ["terragraph_planner/optimization/topology_optimization.py:154-204", "terragraph_planner/optimization/topology_optimization.py:482-669"]}
{"id": "C164", "title": "The net gain is the link budget", "statement": "Without rain the net gain of a link is the gain of both antennas less the losses of both devices, less 20 log10(metres) + 20 log10(MHz) - 27.55, less the attenuation by oxygen at the carrier; the configured rain rate is the one exceeded 0.01 percent of the year, so that for an availability of 99.99 percent the rain loss is that of this rate.", "quantifier": "for all distances from 1 m to 10 km, all carriers of at least 20 GHz, all radios and antenna patterns", "why_tests_cant": "A formula over the reals with unit conversions; tests compare single values with tolerances.", "anchors": ["terragraph_planner/common/rf/link_budget_calculator.py:40-87", "terragraph_planner/common/rf/link_budget_calculator.py:206-346", "terragraph_planner/common/constants.py:14-50"]}
{"id": "C165", "title": "The candidate graph of a LOS run", "statement": "The topology returned by the LOS phase contains the base topology unchanged, every site given by the user, and for every building with detected places exactly one place for clients. Every new link joins sites that can be linked, with a line of sight at the reported confidence, within the limits for their devices; and any two such sites are joined, in each direction in which the first is not a CN.", "quantifier": "for all inputs, base topologies, limits and confidences", "why_tests_cant": "The phase composes the search for pairs, the choice of one place per building, the copies for each device and the limits; tests use a few sites in each step.", "anchors": ["terragraph_planner/los/core.py:89-165", "terragraph_planner/los/core.py:367-437", "terragraph_planner/los/helper.py:82-112", "terragraph_planner/los/helper.py:310-488", "terragraph_planner/los/helper.py:582-664"]}
{"id": "C166", "title": "The LOS phase succeeds on valid input", "statement": "If the device list has the devices needed and a range for every pair of them, the LOS phase returns a candidate topology.", "quantifier": "for all inputs, base topologies, limits and confidences", "why_tests_cant": "An exception of any link ends the whole phase; tests use sites of status CANDIDATE.", "anchors": ["terragraph_planner/los/core.py:89-165", "terragraph_planner/los/helper.py:82-112", "terragraph_planner/los/helper.py:667-757", "terragraph_planner/common/topology_models/link.py:60-110"]}
{"id": "C167", "title": "A planning call keeps its input", "statement": "Whether optimize_and_report_topology returns or raises, every site of the input is still in the topology with its attributes except status, polarity and breakdowns, and every link with its attributes except status, sectors and capacity. EXISTING and UNAVAILABLE are neither left nor entered. New are at most POPs on DNs, if asked for, and their links. In a plan every demand site asks for the configured demand, with manual demand all demand sites of the input are kept, and with demand at CNs there is one at every CN.", "quantifier": "for all topologies built by API calls, all parameters and all answers of solver, sector search and link budget", "why_tests_cant": "The call goes through preparation and five phases, each of which rewrites the topology in place and may raise in the middle.", "anchors": ["terragraph_planner/optimization/topology_optimization.py:121-129", "terragraph_planner/optimization/topology_preparation.py:51-151", "terragraph_planner/optimization/topology_demand.py:33-84", "terragraph_planner/optimization/topology_optimization.py:154-204"]}
{"id": "C168", "title": "Missing POPs or clients are reported first", "statement": "A planning call ends with the message that there is no POP exactly if the input has none and no extra POPs are asked for, and with the message that there are no clients exactly if the input has no CN and demand is placed at CNs only; the topology is then untouched. If the check passes, demand at CNs is placed successfully.", "quantifier": "for all topologies built by API calls, all parameters and all answers of the solver", "why_tests_cant": "The same conditions are checked again in later phases; that no later phase can report them is a statement about all executions.", "anchors": ["terragraph_planner/optimization/topology_optimization.py:131-151", "terragraph_planner/optimization/topology_optimization.py:261-280", "terragraph_planner/optimization/topology_demand.py:33-84"]}
{"id": "C169", "title": "A candidate topology file is read as what it says", "statement": "A candidate topology given as a file - a KML or KMZ file or an archive with sites.csv and links.csv - is loaded exactly if every name in the link list names a site, and then has the sites of the file and, for each pair of the link list, the links in both directions that do not start at a CN, and nothing else.", "quantifier": "for all files, device lists and answers of the parsers", "why_tests_cant": "Loading composes the table parsers, the expansion to devices, the deduplication by name and the topology API; which files are accepted and as what is a statement about all of them.", "anchors": ["terragraph_planner/common/data_io/utils.py:211-310"]}
{"id": "C170", "title": "No line of sight crosses an exclusion zone", "statement": "The exclusion zones of an LOS run are the polygons of the KML or KMZ site file that lie within the boundary, and no link of the run crosses one of them, seen from above.", "quantifier": "for all files, boundaries, sites and limits", "why_tests_cant": "A test with zones in the coordinates of the validator passes; that zones of a file reach it in other coordinates than the sites concerns every file and every pair of sites.", "anchors": ["terragraph_planner/los/helper.py:199-213", "terragraph_planner/los/core.py:124-145", "terragraph_planner/los/core.py:310", "terragraph_planner/los/helper.py:533-553", "terragraph_planner/los/base_los_validator.py:130-142"]}
{"id": "C171", "title": "A location is the same however it is read and copied", "statement": "A location is created exactly from a latitude and longitude in range or from coordinates in a UTM zone. Each property then has one value, whatever was read before, and a copy with another altitude is at the same place.", "quantifier": "for all arguments, orders of reads and answers of the projection", "why_tests_cant": "Coordinates are computed at the first read and kept; that no order of reads and copies matters is a statement about all sequences.", "anchors": ["terragraph_planner/common/geos.py:28-160", "terragraph_planner/common/geos.py:175-206"]}
{"id": "C172", "title": "Whether two sites see each other depends on where they are", "statement": "A line of sight between two sites is accepted only if their distance is at least the minimal and at most the maximal one up to 2 %, and two sites within these limits and without obstruction are not rejected for the zone they are in.", "quantifier": "for all sites, zones and limits", "why_tests_cant": "The places of UTM zone boundaries in a planned area are not met by tests with a few sites; the claim is about all pairs.", "anchors": ["terragraph_planner/los/core.py:300-309", "terragraph_planner/common/geos.py:146-153", "terragraph_planner/common/geos.py:175-206", "terragraph_planner/los/base_los_validator.py:63-101"]}
{"id": "C173", "title": "Redundancy costs as little as possible", "statement": "The redundancy phase leaves as little total shortage of redundancy as possible, and its plan is the cheapest of all plans that do so; once the first of its two solves has succeeded the second cannot fail.", "quantifier": "for all topologies, parameters, link pools and optimal answers of the solver", "why_tests_cant": "Optimality is a statement about all assignments; the effect of fixing the shortage per DN between the two solves shows only on networks where the shortage can be distributed in several ways.", "anchors": ["terragraph_planner/optimization/ilp_models/redundancy_optimization.py:392-424", "terragraph_planner/optimization/ilp_models/redundancy_optimization.py:426-466", "terragraph_planner/optimization/ilp_models/redundancy_optimization.py:468-517"]}
{"id": "C174", "title": "The redundancy step of a run gives what the level promises", "statement": "In the redundancy step of a run the solver is asked for the flows of the configured level and the number of POPs in use, over the pool of the heuristic, and every planned DN without shortage in its answer survives the failures that the level promises. Without an answer the plan stays as it is.", "quantifier": "for all topologies, answers of the solver that meet the constraints, levels and failures", "why_tests_cant": "The promise is about all failures in all networks; a test can take away a few sites of one plan.", "anchors": ["terragraph_planner/optimization/topology_optimization.py:184-191", "terragraph_planner/optimization/topology_optimization.py:376-479", "terragraph_planner/optimization/ilp_models/redundancy_optimization.py:60-120"]}
{"id": "C175", "title": "The coverage step spends at most the budget", "statement": "After the coverage step of a run the proposed CAPEX is at most the budget, or what it was before if that was more. The step changes the plan only if budget is left, and then to the plan of the solver that carries no flow over the adversarial links for the configured ratio.", "quantifier": "for all topologies, budgets, ratios and answers of the solver that meet the constraints", "why_tests_cant": "The CAPEX depends on the statuses of all sites and sectors after the plan has been applied; a test looks at a few plans.", "anchors": ["terragraph_planner/optimization/topology_optimization.py:308-373", "terragraph_planner/optimization/topology_optimization.py:184-191", "terragraph_planner/optimization/ilp_models/coverage_optimization.py:40-82"]}
{"id": "C176", "title": "No network with the coverage is cheaper than the plan", "statement": "If the solver solves the problems it is given, then no choice of sites and routing that meets the rules and serves the share of the demand the run settled for can be built for less than the plan of the cost phase; the reported cost is the cost of that plan.", "quantifier": "for all topologies, parameters, costs not below zero and optimal answers of the solver", "why_tests_cant": "The comparison is with all networks that could be built, and extraction after the solve may switch sites off.", "anchors": ["terragraph_planner/optimization/ilp_models/network_optimization.py:722-760", "terragraph_planner/optimization/ilp_models/site_optimization.py:168-176", "terragraph_planner/optimization/ilp_models/cost_optimization.py:33-52", "terragraph_planner/optimization/topology_optimization.py:207-258"]}
{"id": "C177", "title": "No network within the budget serves more than the coverage plan", "statement": "If the solver solves the problem it is given, then no choice of sites and routing that meets the rules, does without the adversarial links and can be built within the budget brings more to the demand sites together than the routing of the coverage phase.", "quantifier": "for all topologies, parameters, budgets and optimal answers of the solver", "why_tests_cant": "The comparison is with all networks that could be built within the budget.", "anchors": ["terragraph_planner/optimization/ilp_models/network_optimization.py:706-732", "terragraph_planner/optimization/ilp_models/network_optimization.py:822-841", "terragraph_planner/optimization/ilp_models/site_optimization.py:158-166", "terragraph_planner/optimization/ilp_models/coverage_optimization.py:37-51"]}
{"id": "C178", "title": "A run adds the POPs that were asked for and no other site", "statement": "A planning run with extra POPs adds at most the requested number of sites to the input. Each is a POP at the place and with the device of a different DN that may be used and has no POP yet, and every DN that the solver proposed gets one.", "quantifier": "for all topologies, parameters and answers of the solver", "why_tests_cant": "It relates the input with the result of the whole run, for every answer of the solver.", "anchors": ["terragraph_planner/optimization/topology_optimization.py:154-206", "terragraph_planner/optimization/topology_optimization.py:261-305", "terragraph_planner/optimization/ilp_models/pop_proposal_optimization.py:40-138", "terragraph_planner/optimization/ilp_models/pop_proposal_optimization.py:188-305"]}
{"id": "C179", "title": "With common bandwidth the worst served demand site is served as well as the budget admits", "statement": "In the coverage phase with maximize_common_bandwidth, if a network that meets the rules, does without the adversarial links and fits the budget brings every connectable demand site at least some bandwidth, then so does the routing found; the common bandwidth is what the worst served connectable demand site receives.", "quantifier": "for all topologies, parameters, sets of adversarial links, sets of connectable demand sites and optimal answers of the solver", "why_tests_cant": "It compares the routing with every other network that could be built.", "anchors": ["terragraph_planner/optimization/ilp_models/network_optimization.py:799-841", "terragraph_planner/optimization/ilp_models/site_optimization.py:158-166", "terragraph_planner/optimization/ilp_models/coverage_optimization.py:37-51"]}
{"id": "C180", "title": "With common bandwidth the cost phase finds the cheapest network that serves each demand site", "statement": "In the cost phase with maximize_common_bandwidth every connectable demand site receives at least the required share of the smallest demand, and no network that meets the rules and does so costs less than the plan.", "quantifier": "for all topologies, parameters, sets of connectable demand sites and optimal answers of the solver", "why_tests_cant": "It compares the plan with every other network that could be built.", "anchors": ["terragraph_planner/optimization/ilp_models/network_optimization.py:722-797", "terragraph_planner/optimization/ilp_models/site_optimization.py:168-176", "terragraph_planner/optimization/ilp_models/cost_optimization.py:37-118"]}
{"id": "C181", "title": "With common bandwidth the cost phase ends with a plan or without one, not with an error", "statement": "With maximize_common_bandwidth the coverage requirement can be stated for every network, also if no demand site is connectable.", "quantifier": "for all topologies and sets of connectable demand sites", "why_tests_cant": "The tests only have networks with a connectable demand site.", "anchors": ["terragraph_planner/optimization/ilp_models/network_optimization.py:762-785"]}
{"id": "C182", "title": "The interference assumed by the optimizer is a worst case", "statement": "The optimizer has an interference value for exactly the pairs of sites with a link: none over wired links and links without sectors, and over every other link what arrives at full power, so that with no power that the later power control settles for does a link from the same site bring more over this path.", "quantifier": "for all topologies, devices, antenna patterns and numbers of rounds of power control", "why_tests_cant": "It relates two phases of a run over all topologies and radios.", "anchors": ["terragraph_planner/optimization/topology_interference.py:34-81", "terragraph_planner/optimization/ilp_models/interference_optimization.py:91-99", "terragraph_planner/optimization/topology_operations.py:507-616"]}
{"id": "C183", "title": "The interference phase serves as much as it can, and prefers many short links", "statement": "Without maximize_common_bandwidth, the network found in the interference phase serves as much demand as any network with the chosen sites can; among the networks that serve at least as much, none has a larger sum of link bonuses, where a link counts 1 if it is the longest and up to 2 the shorter it is.", "quantifier": "for all topologies, parameters, interference data and best solutions", "why_tests_cant": "It compares the solution with every other network that meets the constraints.", "anchors": ["terragraph_planner/optimization/ilp_models/interference_optimization.py:1064-1082", "terragraph_planner/optimization/ilp_models/optimization_setup.py:184-196", "terragraph_planner/optimization/ilp_models/network_optimization.py:822-832"]}
{"id": "C184", "title": "The LOS model of the configuration decides what must be clear", "statement": "With the cylindrical model no cell of the surface beside a line of sight comes nearer to the line than the confidence threshold times the configured Fresnel radius, and the carrier frequency does not matter. With the ellipsoidal model no cell reaches into the ellipsoid with the threshold times the radius of the first Fresnel zone at the carrier frequency, and the configured radius does not matter.", "quantifier": "for all limits, surfaces, zones and pairs of sites", "why_tests_cant": "It is about all surfaces and lines, and about each of the two models getting its own parameters.", "anchors": ["terragraph_planner/los/helper.py:533-571", "terragraph_planner/los/core.py:137-153", "terragraph_planner/los/cylindrical_los_validator.py:55-139", "terragraph_planner/los/ellipsoidal_los_validator.py:44-88"]}
{"id": "C185", "title": "Capacities when planning starts are those of the link budget", "statement": "When a topology has been prepared for planning, each of its links has a capacity that depends on its kind only and not on the capacities of the input: a wired link that of a POP, a wireless link without sectors none, and every other link that of its link budget without deviation.", "quantifier": "for all topologies, devices, demand parameters and link budgets", "why_tests_cant": "It is about all links of every topology, through the placement of sectors and demand that also change the topology.", "anchors": ["terragraph_planner/optimization/topology_preparation.py:51-138"]}
{"id": "C186", "title": "Demand sites counted as connectable in the interference phase", "statement": "A demand site that the interference phase counts as connectable can be reached from a POP over built sites, usable cables and radio links that can be chosen together: they join opposite polarities, at most one reaches each CN, and both directions of a link are chosen together. No network that the phase can build serves more demand sites over built sites than are counted.", "quantifier": "for all topologies, parameters, interference inputs, best solutions of the counting problem and feasible networks of the phase", "why_tests_cant": "It compares the optimum of one integer program with all feasible solutions of another, for every topology.", "anchors": ["terragraph_planner/optimization/ilp_models/interference_optimization.py:128-162", "terragraph_planner/optimization/ilp_models/interference_optimization.py:1311-1373", "terragraph_planner/optimization/ilp_models/network_optimization.py:1073-1226"]}
{"id": "C187", "title": "The routing of the report is free of loops and delivers the reported bandwidth", "statement": "Reading the routing of the report from the answer of the solver finishes. The routing has no loops, delivers exactly the reported common bandwidth to every connected demand site that has a demand link, over paths from POPs, and nothing to the others; it respects POP capacities, link capacities and the reported shares of time. No routing of the active network over PROPOSED sectors delivers more to all connected demand sites.", "quantifier": "for all topologies, parameters and best answers of the solver", "why_tests_cant": "Loop removal changes the flows of the solver on arbitrary graphs; that balance, bandwidth and limits survive it is a statement about all of them.", "anchors": ["terragraph_planner/optimization/ilp_models/flow_optimization.py:142-170", "terragraph_planner/optimization/ilp_models/flow_optimization.py:233-268", "terragraph_planner/optimization/ilp_models/network_optimization.py:895-988"]}
{"id": "C188", "title": "With common bandwidth the interference phase serves the worst served connectable demand site as well as possible", "statement": "With maximize_common_bandwidth, the interference phase ends with a common bandwidth that is positive and is what the worst served connectable demand site receives. Of the networks that bring every connectable demand site that much, none has more or shorter links. No network over the same sites brings all of them more. If no common bandwidth can be had, the network is chosen by the total bandwidth instead.", "quantifier": "for all topologies, parameters, interference tables, sets of connectable demand sites and best answers of the solver", "why_tests_cant": "Which network wins is decided by an objective that mixes bandwidth and link lengths over all feasible networks; tests see single networks.", "anchors": ["terragraph_planner/optimization/ilp_models/interference_optimization.py:195-258", "terragraph_planner/optimization/ilp_models/interference_optimization.py:1064-1082", "terragraph_planner/optimization/ilp_models/network_optimization.py:799-832"]}
{"id": "C189", "title": "A planning run leaves the parameters of the caller as they were", "statement": "However a planning run ends, always_active_pops and maximize_common_bandwidth of the parameters object the caller passed are afterwards as the caller set them, and polarities are not ignored.", "quantifier": "for all topologies, parameters, ends of a run and answers of the solver", "why_tests_cant": "Two constructors change the shared parameters and restore them afterwards; an exception in between can come from any input, and tests look at runs that succeed.", "anchors": ["terragraph_planner/optimization/topology_optimization.py:154-204", "terragraph_planner/optimization/ilp_models/pop_proposal_optimization.py:189-209", "terragraph_planner/optimization/ilp_models/redundancy_optimization.py:60-75", "terragraph_planner/optimization/ilp_models/optimization_setup.py:109"]}
{"id": "C190", "title": "The sites a user asks for are loaded, on every suitable device, and no others", "statement": "Loading a list of input sites gives, for each row within the boundary, a site at the place of the row with its type on every device that suits it (the named one, or each one of the kind the site type needs), and no other sites. Every loaded site has the status and subscribers of a row it stands for, the inferred altitude and location type, and the unknown building on roofs. Rows outside the boundary make no difference. A row within the boundary whose device is unknown or of the wrong kind is rejected. An altitude or location type that the row gives is kept, and a height that it gives is above the surface.", "quantifier": "for all lists of rows, devices, boundaries and inferred locations", "why_tests_cant": "Rows interact through duplicate detection and renaming; which sites survive is a statement about all lists of rows and devices.", "anchors": ["terragraph_planner/common/data_io/input_sites_loader.py:63-204", "terragraph_planner/common/data_io/input_sites.py:60-108"]}
{"id": "C191", "title": "Asking for the link between two sectors gives the link that uses them", "statement": "After any sequence of changes to a topology, get_link_by_sector_ids gives the link that uses the two sectors if there is one and None if there is none, and raises an exception exactly if one of the sectors is not in the topology.", "quantifier": "for all sequences of topology operations and all pairs of sectors", "why_tests_cant": "Sectors, sites and links are changed independently and sites have several sectors; tests use sites with one sector.", "anchors": ["terragraph_planner/common/topology_models/topology.py:318-354", "terragraph_planner/common/topology_models/link.py:161-175"]}
{"id": "C192", "title": "The fixed sectors and polarities handed to the solver are those of the topology", "statement": "After any sequence of changes, get_sector_ids lists under each site exactly its sectors of the wanted status and no site without one, and get_site_polarities lists for ODD and EVEN exactly the PROPOSED and EXISTING POPs and DNs of that polarity, no site under both. The routing problem fixes sectors, and the redundancy solution the polarity of sites it leaves out, by these lists.", "quantifier": "for all sequences of topology operations, statuses and sites", "why_tests_cant": "That grouping loses and misplaces nothing is a statement about all topologies reachable by changes.", "anchors": ["terragraph_planner/common/topology_models/topology.py:427-450", "terragraph_planner/optimization/ilp_models/optimization_setup.py:150-158", "terragraph_planner/optimization/ilp_models/flow_optimization.py:183-191", "terragraph_planner/optimization/ilp_models/redundancy_optimization.py:580-591"]}
{"id": "C193", "title": "Links a plan does not use never rule it out in the interference phase", "statement": "The interference model bounds the SINR of every candidate link, used or not. Still, however weak the signal and however strong the noise and interference at links a plan sends nothing over, the plan stays feasible with the same sites, sectors, links, traffic and time shares; only the SNR classes of these links change, to the one without throughput.", "quantifier": "for all topologies, parameters, feasible plans, numbers of channels, MCS tables and non-negative radio levels", "why_tests_cant": "The bound of the class without throughput is recomputed per link and channel and may be too tight only for some layout of interferers; a test solves single networks.", "anchors": ["terragraph_planner/optimization/ilp_models/interference_optimization.py:833-878", "terragraph_planner/optimization/ilp_models/interference_optimization.py:880-1062"]}
{"id": "C194", "title": "The cost reported with a redundancy plan is the cost of what it selects", "statement": "The cost in the solution of the redundancy phase is what has to be paid for the plan: every selected site that does not exist yet at the price of its type, and every node with a selected sector on such a site at the price of its device, once however many sectors the node has.", "quantifier": "for all sequences of topology operations, parameters, link pools and values of the decision variables", "why_tests_cant": "Prices are attached to the first sector of each node and summed over decisions assembled from three sources; only a proof covers every layout of nodes, sectors and co-located sites.", "anchors": ["terragraph_planner/optimization/ilp_models/redundancy_optimization.py:519-626", "terragraph_planner/optimization/ilp_models/network_optimization.py:735-760", "terragraph_planner/optimization/ilp_models/optimization_setup.py:242-255"]}
