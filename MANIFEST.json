{
 "claims": [
  {
   "property": "C01",
   "status": "proved",
   "theorems": [
    "Verif.C01_consistent"
   ],
   "note": "Invariant over every finite history of the eight mutating calls, failed calls included."
  },
  {
   "property": "C02",
   "status": "partial",
   "theorems": [
    "Verif.C02_remove_site_succeeds_partial",
    "Verif.C02_remove_readd_remove_violation",
    "Verif.C02_self_loop_violation"
   ],
   "note": "False of the code (two witnesses: stale per-site sector index; self-loop link). Proved for histories without an earlier site removal and sites without a self-loop."
  },
  {
   "property": "C03",
   "status": "proved",
   "theorems": [
    "Verif.C03_remove_site_exact",
    "Verif.C03_remove_sector_exact",
    "Verif.C03_remove_link_exact"
   ],
   "note": "Frame theorems for remove_site, remove_sector and remove_link on every reachable topology."
  },
  {
   "property": "C04",
   "status": "partial",
   "theorems": [
    "Verif.C04_successors",
    "Verif.C04_predecessors",
    "Verif.C04_wireless_successors",
    "Verif.C04_wireless_predecessors_partial",
    "Verif.C04_wireless_predecessors_violation"
   ],
   "note": "Successor, predecessor and wireless successor queries proved exact. The wireless predecessor query is wrong in the code: witness, and exact description of what it returns."
  },
  {
   "property": "C05",
   "status": "proved",
   "theorems": [
    "Verif.C05_sort_contents",
    "Verif.C05_sort_order",
    "Verif.C05_sort_deterministic",
    "Verif.C05_sort_idempotent"
   ],
   "note": ""
  },
  {
   "property": "C06",
   "status": "proved",
   "theorems": [
    "Verif.C06_fixed_status"
   ],
   "note": "All sequences of status assignments through the setters, raising ones included."
  },
  {
   "property": "C07",
   "status": "proved",
   "theorems": [
    "Verif.C07_constructor",
    "Verif.C07_setter",
    "Verif.C07_sequences",
    "Verif.C07_no_unavailable_unreachable"
   ],
   "note": "Constructor, setter, and all sequences of link/sector assignments. A later site status change is not re-checked by the code, so the sequence theorem excludes it."
  },
  {
   "property": "C08",
   "status": "proved",
   "theorems": [
    "Verif.C08_hops"
   ],
   "note": "Termination, least path length, and completeness, for every history-built topology and every status filter."
  },
  {
   "property": "C09",
   "status": "proved",
   "theorems": [
    "Verif.C09_reachable_demand"
   ],
   "note": ""
  },
  {
   "property": "C10",
   "status": "proved",
   "theorems": [
    "Verif.C10_mark_exact",
    "Verif.C10_returns",
    "Verif.C10_raise_witness"
   ],
   "note": "Exactness whenever the call returns; C10_returns gives a sufficient condition for returning and C10_raise_witness an input on which it raises half way."
  },
  {
   "property": "C11",
   "status": "proved",
   "theorems": [
    "Verif.C11_fixed_untouched",
    "Verif.C11_terminates"
   ],
   "note": "Also when the call raises half way."
  },
  {
   "property": "C12",
   "status": "proved",
   "theorems": [
    "Verif.C12_proposed_iff_decided"
   ],
   "note": ""
  },
  {
   "property": "C13",
   "status": "partial",
   "theorems": [
    "Verif.C13_connected_kept",
    "Verif.C13_no_link_at_withdrawn_site",
    "Verif.C13_withdrawn_partial",
    "Verif.C13_sectors_withdrawn",
    "Verif.C13_no_sector_violation"
   ],
   "note": "The full statement is false of the code: a PROPOSED site without sectors is never withdrawn (C13_no_sector_violation). Proved for every site that carries a sector; connected sites are kept; no PROPOSED link ends at a CANDIDATE site."
  },
  {
   "property": "C14",
   "status": "partial",
   "theorems": [
    "Verif.C14_capex_partial",
    "Verif.C14_order_independent_partial",
    "Verif.C14_order_violation"
   ],
   "note": "The full statement is false of the code: C14_order_violation shows a node of mixed status charged or not depending on insertion order. Proved when the sectors of each node share a status."
  },
  {
   "property": "C15",
   "status": "proved",
   "theorems": [
    "Verif.C15_pop_capacity_bound",
    "Verif.C15_pop_capacity_attained"
   ],
   "note": "Upper bound for every assignment, and attained by one (for non-negative capacities)."
  },
  {
   "property": "C16",
   "status": "proved",
   "theorems": [
    "Verif.C16_best_level",
    "Verif.C16_monotone",
    "Verif.C16_lookups_inverse",
    "Verif.C16_empty_raises"
   ],
   "note": ""
  },
  {
   "property": "C17",
   "status": "partial",
   "theorems": [
    "Verif.C17_power_in_range",
    "Verif.C17_power_supports_level_partial",
    "Verif.C17_no_usable_level_skipped",
    "Verif.C17_tied_threshold_violation"
   ],
   "note": "Range and termination for every table; that the power meets the threshold and no usable level is skipped for tables with strictly growing thresholds. With equal thresholds it is false: C17_tied_threshold_violation."
  },
  {
   "property": "C18",
   "status": "partial",
   "theorems": [
    "Verif.C18_within_device_maximum",
    "Verif.C18_eirp_limit_partial",
    "Verif.C18_every_direction",
    "Verif.C18_eirp_violation"
   ],
   "note": "False when the device minimum power exceeds the limit (C18_eirp_violation); the exact condition is proved. The antenna pattern file format is not modelled; scan patterns are."
  },
  {
   "property": "C19",
   "status": "partial",
   "theorems": [
    "Verif.C19_level_in_table_partial",
    "Verif.C19_gap_violation",
    "Verif.C19_below_table_violation"
   ],
   "note": "False for tables with gaps or with a back-off on the lowest level (two violation theorems); proved for consecutive levels whose lowest row has no back-off, such as the default table."
  },
  {
   "property": "C20",
   "status": "proved",
   "theorems": [
    "Verif.C20_result_is_an_edge",
    "Verif.C20_exact_boundary",
    "Verif.C20_pair_range"
   ],
   "note": "C20_exact_boundary is for any capacity function that stays 0 once 0; C20_pair_range derives that from the link budget when net gain never grows with distance and levels are consecutive."
  },
  {
   "property": "C21",
   "status": "proved",
   "theorems": [
    "Verif.C21_pair_ranges",
    "Verif.C21_symmetric_and_capped"
   ],
   "note": ""
  },
  {
   "property": "C22",
   "status": "proved",
   "theorems": [
    "Verif.C22_candidate_pairs",
    "Verif.C22_batches"
   ],
   "note": "Pairs out of range are rejected later, by the validator (C27). The multiprocessing pool is modelled as sequential evaluation of the batches in order."
  },
  {
   "property": "C23",
   "status": "partial",
   "theorems": [
    "Verif.C23_memo_partial",
    "Verif.C23_cylindrical_partial",
    "Verif.C23_memo_violation"
   ],
   "note": "C23_memo_partial: any validator whose confidence depends on the places only, regardless of order, for any batch size. C23_cylindrical_partial: the cylindrical validator if sites in the same place have the same location type and building. Otherwise violated (C23_memo_violation)."
  },
  {
   "property": "C24",
   "status": "proved",
   "theorems": [
    "Verif.C24_connectable_status"
   ],
   "note": "All graphs and picked sets; the four sets are exactly characterised."
  },
  {
   "property": "C25",
   "status": "proved",
   "theorems": [
    "Verif.C25_additional_dns"
   ],
   "note": "The order in which the set of CNs is iterated is a parameter (any permutation). Neighbour lists are assumed consistent, as C106 shows them to be."
  },
  {
   "property": "C26",
   "status": "partial",
   "theorems": [
    "Verif.C26_links_partial",
    "Verif.C26_base_violation"
   ],
   "note": "Every valid LOS link between two new sites within the limits becomes a candidate link with the confidence found, and nothing else is added. Missing: no link to a site of the base topology is ever added (C26_base_violation)."
  },
  {
   "property": "C27",
   "status": "proved",
   "theorems": [
    "Verif.C27_bounds",
    "Verif.C27_order",
    "Verif.C27_obstructions",
    "Verif.C27_threshold",
    "Verif.C27_symmetric",
    "Verif.C27_clearance",
    "Verif.C27_range",
    "Verif.C27_blocked"
   ],
   "note": "Over real numbers; the surface raster is an arbitrary function from boxes to cells. C27_range also says which pairs are in range: distance limits, elevation limit, altitude."
  },
  {
   "property": "C28",
   "status": "partial",
   "theorems": [
    "Verif.C28_same_building_partial",
    "Verif.C28_input_rooftops_violation"
   ],
   "note": "Holds for detected sites and mixed pairs. Violated for input sites: any two on rooftops share the placeholder building (C28_input_rooftops_violation)."
  },
  {
   "property": "C29",
   "status": "partial",
   "theorems": [
    "Verif.InputSites.C29_names_partial",
    "Verif.InputSites.C29_given_name_violation",
    "Verif.InputSites.C29_appended_name_violation",
    "Verif.InputSites.C29_default_name"
   ],
   "note": "Proved without conditions: when loading fails, which sites are kept, soundness of both lookups, repeated sites ignored. Unique names and completeness of the lookup by name are proved if no name clashes with an appended one; the two _violation theorems show both kinds of clash."
  },
  {
   "property": "C30",
   "status": "proved",
   "theorems": [
    "Verif.Topology.C30_link_list",
    "Verif.C30_link_file",
    "Verif.Topology.C30_same_place_twice"
   ],
   "note": "Names are resolved by get_site_by_name (see C29). Reading of link files is C30_link_file; the site statuses are assumed not ruled out, csv_library.py:192 sets CANDIDATE."
  },
  {
   "property": "C31",
   "status": "proved",
   "theorems": [
    "Verif.C31_accepted_iff",
    "Verif.C31_jointly_ordered"
   ],
   "note": "From the parsed numeric rows on; CSV text parsing is not modelled."
  },
  {
   "property": "C32",
   "status": "partial",
   "theorems": [
    "Verif.C32_roundtrip_partial",
    "Verif.C32_eq_partial",
    "Verif.C32_eq_before_partial",
    "Verif.C32_no_limit_violation",
    "Verif.C32_pattern_violation",
    "Verif.C32_range_violation",
    "Verif.C32_eq_device_violation",
    "Verif.C32_eq_none_violation",
    "Verif.C32_eq_longer_violation",
    "Verif.C32_eq_asymmetric_violation"
   ],
   "note": "Proved for every class and every object its constructor accepts: from_dict of to_dict gives the same object, if the LOS distance is limited and the radio parameters handed down are in the range of SectorParams; every such object compares equal to itself, and SiteDetectionParams compare equal only if all fields are equal. The rest of the claim is false, with witnesses: no distance limit comes back as 200 m, a sector with an antenna pattern cannot be written, a negative rain rate cannot be read again, and comparison ignores what follows a nested configuration or None, extra devices, and NotImplemented in lists."
  },
  {
   "property": "C33",
   "status": "proved",
   "theorems": [
    "Verif.C33_device_skus"
   ],
   "note": "Accepted exactly if non-empty and pairwise different after case folding; rejections are ConfigExceptions; order and SKUs kept. str.casefold is a parameter."
  },
  {
   "property": "C34",
   "status": "partial",
   "theorems": [
    "Verif.C34_availability_exact",
    "Verif.C34_availability_partial",
    "Verif.C34_zero_violation",
    "Verif.C34_limit_violation",
    "Verif.C34_one_way_refused"
   ],
   "note": "Exact value proved: for any validated network and any positive times to failure the simulation succeeds, each served demand site's availability is the part of the simulated time with service (all outage boundaries included), hence between 0 and 1, and 1 if never without service; links alike. Missing: link_availability = 0 (accepted by the checks) makes every time to failure 0 and raises (C34_zero_violation); when the time limit is exceeded link values are not rescaled (C34_limit_violation). The pseudo-random generator is a parameter."
  },
  {
   "property": "C35",
   "status": "partial",
   "theorems": [
    "Verif.C35_link_breakdowns_partial",
    "Verif.C35_direction_violation",
    "Verif.C35_reverse_violation"
   ],
   "note": "Proved for wireless links in use that lead to a DN or POP, in the direction in which the sender id precedes the receiver id: the count is exactly the number of demand sites that lose service, on the graph as disjoint_paths leaves it. False for the other direction: single_edge_failures stores counts under the sorted pair, add_statistics_to_topology looks up (tx, rx), so such a link is always reported with 0 (C35_direction_violation for every network, C35_reverse_violation for one where service is lost). Links to CNs are passed over. The graph is left unchanged because the function works on a copy."
  },
  {
   "property": "C36",
   "status": "partial",
   "theorems": [
    "Verif.C36_site_breakdowns_partial",
    "Verif.C36_cn_violation"
   ],
   "note": "Proved for every POP and DN, in use or not. CNs are passed over although the docstring includes them, so a CN is reported with 0 even if its demand site loses service (C36_cn_violation)."
  },
  {
   "property": "C37",
   "status": "partial",
   "theorems": [
    "Verif.C37_graph_kept_partial",
    "Verif.C37_attributes_lost_violation",
    "Verif.C37_demo_violation"
   ],
   "note": "Nodes, edges and the attributes of edges to CNs, to demand sites and from the supersource are kept (C37_graph_kept_partial). The other edges of every shortest path come back without link_type and link_cost (C37_attributes_lost_violation for every network, C37_demo_violation on a concrete one)."
  },
  {
   "property": "C38",
   "status": "partial",
   "theorems": [
    "Verif.Graph.C38_disruptive_links",
    "Verif.C38_adversarial_links_partial",
    "Verif.C38_no_capacity_violation",
    "Verif.C38_twin_violation"
   ],
   "note": "C38_disruptive_links: for any two graphs (the second containing the first's backhaul edges) and any count. C38_adversarial_links_partial: in a valid topology with capacity on the links in use and no competing sites in use, the links found are both directions of at most the requested number of links, every demand site that can be served at all can be served without all of them together, each is disruptive, and a disruptive link is passed over only if it could not be spared or the quota was filled with links that disrupt no fewer demand sites. Violated (exception ends the coverage phase) for a disruptive link in use with zero capacity (C38_no_capacity_violation) and for an EXISTING DN at the place of an EXISTING POP (C38_twin_violation)."
  },
  {
   "property": "C39",
   "status": "proved",
   "theorems": [
    "Verif.C39_flow_bookkeeping"
   ],
   "note": "Feasible means the constraints hold exactly; solver tolerances are not modelled."
  },
  {
   "property": "C40",
   "status": "proved",
   "theorems": [
    "Verif.C40_serving_path"
   ],
   "note": "Path of positive-flow links from a POP fed by the source; all its sites selected."
  },
  {
   "property": "C41",
   "status": "proved",
   "theorems": [
    "Verif.C41_capacity_and_time",
    "Verif.C41_airtime",
    "Verif.C41_interference"
   ],
   "note": "C41_capacity_and_time and C41_airtime for the site-selection models (one channel), C41_interference for the interference model with any number of channels."
  },
  {
   "property": "C42",
   "status": "proved",
   "theorems": [
    "Verif.C42_opposite_polarity"
   ],
   "note": "For the site-selection models, every wireless link between DN/POP sites with positive time share."
  },
  {
   "property": "C43",
   "status": "proved",
   "theorems": [
    "Verif.C43_one_site_per_place"
   ],
   "note": "Includes which site is chosen when the input demands one at the place."
  },
  {
   "property": "C44",
   "status": "proved",
   "theorems": [
    "Verif.C44_cost"
   ],
   "note": "Cost equals planCost (a separate specification) and is within the budget under the cost constraint. Exact feasibility: solver tolerance is not modelled."
  },
  {
   "property": "C45",
   "status": "proved",
   "theorems": [
    "Verif.C45_consistent"
   ],
   "note": "Exact feasibility: solver tolerance is not modelled. Covers the plan models with site decisions (min cost, coverage)."
  },
  {
   "property": "C46",
   "status": "proved",
   "theorems": [
    "Verif.C46_prune_loops",
    "Verif.C46_pruned_plan"
   ],
   "note": "Proved for the search and reduction loop over any graph without self loops whose links are distinct, in exact rational arithmetic; the residue below EPSILON that the code leaves is part of the statement."
  },
  {
   "property": "C47",
   "status": "proved",
   "theorems": [
    "Verif.C47_survives",
    "Verif.C47_levels"
   ],
   "note": "C47_survives: a planned DN stays joined to a POP under any set of site and link failures lighter than its redundancy minus its shortage; C47_levels spells out LOW, MEDIUM and HIGH. For every assignment satisfying the constraints exactly and every candidate link pool; hypothesis SectorsAtEnds (the sectors of a link are on its ends) holds of topologies built by the planner."
  },
  {
   "property": "C48",
   "status": "partial",
   "theorems": [
    "Verif.C48_site_phases_partial",
    "Verif.C48_violation"
   ],
   "note": "Holds in the cost, coverage and POP-proposal phases. Violated in the interference phase (C48_violation): the constraint tests pair keys against a dictionary of triple keys, so it is never emitted."
  },
  {
   "property": "C49",
   "status": "partial",
   "theorems": [
    "Verif.C49_existing_sector_violation",
    "Verif.C49_proposed_sectors_partial",
    "Verif.C49_existing_network_violation"
   ],
   "note": "Every routing over PROPOSED sectors is feasible; EXISTING sectors get no air time in any feasible routing, proved as a violation for every topology and on a concrete network."
  },
  {
   "property": "C50",
   "status": "partial",
   "theorems": [
    "Verif.C50_early_exit_partial",
    "Verif.C50_direct_demand_violation",
    "Verif.C50_unavailable_pop_violation",
    "Verif.C50_common_bandwidth_violation"
   ],
   "note": "Sound when no demand site is connected to a POP, no POP is UNAVAILABLE/UNREACHABLE while POPs are always active, sectors of links out of POPs are at the POP, and common bandwidth is not maximized; three violation theorems show the first, second and last are needed."
  },
  {
   "property": "C51",
   "status": "partial",
   "theorems": [
    "Verif.C51_decided_sites_partial",
    "Verif.C51_unavailable_pop_violation",
    "Verif.C51_existing_cn_violation"
   ],
   "note": "Violated for UNAVAILABLE POPs with always_active_pops (C51_unavailable_pop_violation) and for EXISTING CNs with a DN at the same place (C51_existing_cn_violation); proved for all other sites."
  },
  {
   "property": "C52",
   "status": "proved",
   "theorems": [
    "Verif.C52_limits",
    "Verif.C52_ends"
   ],
   "note": "For topologies whose links carry sectors of their own ends and CN sectors exactly at CNs (SectorsKnown), as topology preparation produces them. Links decided on are the radio links of positive capacity with sectors."
  },
  {
   "property": "C53",
   "status": "proved",
   "theorems": [
    "Verif.C53_sinr"
   ],
   "note": "For links of positive received power; for a received power of exactly zero the code accepts any class."
  },
  {
   "property": "C54",
   "status": "partial",
   "theorems": [
    "Verif.C54_number_partial",
    "Verif.C54_proposed_partial",
    "Verif.C54_existing_pop_violation",
    "Verif.C54_used_dns_violation",
    "Verif.C54_colocated_pops_violation",
    "Verif.C54_dropped_violation"
   ],
   "note": "C54_number_partial: in every feasible solution all usable POPs of the input are chosen and exactly min(requested, available) of the free DNs, provided no two usable POPs are at one place; C54_proposed_partial: after extraction at most that many. The violations are theorems: EXISTING POP raises, infeasible if more DNs are in use than requested, co-located POPs count twice, chosen DNs without flow are dropped."
  },
  {
   "property": "C55",
   "status": "proved",
   "theorems": [
    "Verif.Topology.C55_exact",
    "Verif.Topology.C55_total",
    "Verif.Topology.C55_link_ids"
   ],
   "note": "exact, total and link-id form"
  },
  {
   "property": "C56",
   "status": "partial",
   "theorems": [
    "Verif.C56_congruent",
    "Verif.C56_symmetric",
    "Verif.C56_range_partial",
    "Verif.C56_shortest_partial",
    "Verif.C56_range_violation"
   ],
   "note": "range (-180,180] only for inputs within one turn; C56_range_violation shows angle_delta out of range for larger inputs"
  },
  {
   "property": "C57",
   "status": "partial",
   "theorems": [
    "Verif.C57_closest_within_range_partial",
    "Verif.C57_refused_iff_partial",
    "Verif.C57_bearing_violation"
   ],
   "note": "holds for the azimuths used by the code; C57_bearing_violation: rx azimuth is tx azimuth + 180, not the bearing of the reverse link"
  },
  {
   "property": "C58",
   "status": "partial",
   "theorems": [
    "Verif.Topology.C58_covers",
    "Verif.Topology.C58_returns_partial",
    "Verif.Topology.C58_hangs_violation",
    "Verif.Topology.C58_west_violation"
   ],
   "note": "Coverage of the box by the grid is proved for every finished run; termination only away from the antimeridian. C58_hangs_violation and C58_west_violation exhibit a run that never ends and one that raises."
  },
  {
   "property": "C59",
   "status": "proved",
   "theorems": [
    "Verif.Topology.C59_closure",
    "Verif.Topology.C59_connected_exactly",
    "Verif.Topology.C59_idempotent"
   ],
   "note": "connect_demand_to_colocated_sites yields exactly the closure; idempotent."
  },
  {
   "property": "C60",
   "status": "partial",
   "theorems": [
    "Verif.Raster.C60_index_valid",
    "Verif.Raster.C60_index_nearest",
    "Verif.Raster.C60_value",
    "Verif.Raster.C60_repeat",
    "Verif.Raster.C60_window_partial",
    "Verif.Raster.C60_window_violation",
    "Verif.Raster.C60_list"
   ],
   "note": "Index conversion (valid, nearest) and lookups proved in full, and the list window (raster without missing values). The matrix window is proved for bounds that do not start a full cell outside; C60_window_violation shows a negative index is taken as counting from the end."
  },
  {
   "property": "C61",
   "status": "partial",
   "theorems": [
    "Verif.C61_total_sites",
    "Verif.C61_totals_add_up",
    "Verif.C61_connectable",
    "Verif.C61_link_count",
    "Verif.C61_link_pairs_partial",
    "Verif.C61_stacked_violation"
   ],
   "note": "The link part is false of the code: C61_stacked_violation. Link counts are characterised exactly (C61_link_count) and equal the number of joined site pairs when different sites of a type lie in different geohash cells; site totals, connectable counts and sums are proved without restriction."
  },
  {
   "property": "C62",
   "status": "partial",
   "theorems": [
    "Verif.C62_restored_partial",
    "Verif.C62_returns",
    "Verif.C62_fixed_link_violation",
    "Verif.C62_ignored_end_violation"
   ],
   "note": "The full statement is false of the code: C62_fixed_link_violation (an ignored EXISTING link) and C62_ignored_end_violation (an ignored link at an ignored site) leave statuses changed. Proved: whenever the call returns, the topology is exactly as before, and C62_returns gives a sufficient condition for returning."
  },
  {
   "property": "C63",
   "status": "proved",
   "theorems": [
    "Verif.C63_link_id_injective",
    "Verif.C63_sector_id_injective"
   ],
   "note": "Ids as rendered strings; hyphen-free site ids is the MD5 assumption."
  },
  {
   "property": "C64",
   "status": "proved",
   "theorems": [
    "Verif.C64_sector_setter"
   ],
   "note": ""
  },
  {
   "property": "C65",
   "status": "proved",
   "theorems": [
    "Verif.C65_ignored_excluded"
   ],
   "note": ""
  },
  {
   "property": "C66",
   "status": "proved",
   "theorems": [
    "Verif.C66_same_node_result",
    "Verif.C66_same_node_fails_iff",
    "Verif.C66_uniform"
   ],
   "note": ""
  },
  {
   "property": "C67",
   "status": "proved",
   "theorems": [
    "Verif.C67_defined_iff",
    "Verif.C67_same_hash_iff",
    "Verif.C67_format"
   ],
   "note": ""
  },
  {
   "property": "C68",
   "status": "partial",
   "theorems": [
    "Verif.C68_active_le_total_partial",
    "Verif.C68_active_sites_partial",
    "Verif.C68_colocated_violation"
   ],
   "note": "False for sites: C68_colocated_violation. Proved for links, nodes, sectors, and for sites without co-located active sites of one type."
  },
  {
   "property": "C69",
   "status": "partial",
   "theorems": [
    "Verif.C69_backup_count_partial",
    "Verif.C69_unavailable_violation"
   ],
   "note": "False of the code: C69_unavailable_violation. Proved: exact characterisation of what is counted."
  },
  {
   "property": "C70",
   "status": "proved",
   "theorems": [
    "Verif.C70_channel_count",
    "Verif.C70_channels_add_up"
   ],
   "note": "For topologies whose reciprocal links use one channel; the sum needs no assumption."
  },
  {
   "property": "C71",
   "status": "partial",
   "theorems": [
    "Verif.C71_capacity_monotone_partial",
    "Verif.C71_gap_violation"
   ],
   "note": "False for tables with gaps (C71_gap_violation); proved for consecutive positive levels."
  },
  {
   "property": "C72",
   "status": "partial",
   "theorems": [
    "Verif.C72_capacity_has_signal_partial",
    "Verif.C72_level_zero_violation"
   ],
   "note": "False for tables listing level 0 (C72_level_zero_violation); proved for all others with strictly growing thresholds."
  },
  {
   "property": "C73",
   "status": "partial",
   "theorems": [
    "Verif.C73_minimum_level_partial",
    "Verif.C73_default_table_violation"
   ],
   "note": "False without a rate table file (C73_default_table_violation); proved with one."
  },
  {
   "property": "C74",
   "status": "partial",
   "theorems": [
    "Verif.C74_ascending_accepted_partial",
    "Verif.C74_descending_violation"
   ],
   "note": "False of the code (C74_descending_violation); proved for ascending rows."
  },
  {
   "property": "C75",
   "status": "partial",
   "theorems": [
    "Verif.Topology.C75_reported_iff",
    "Verif.Topology.C75_listing_partial",
    "Verif.Topology.C75_listing_violation"
   ],
   "note": "membership proved; C75_listing_violation shows the listed partners are not exactly the active-link partners"
  },
  {
   "property": "C76",
   "status": "partial",
   "theorems": [
    "Verif.Topology.C76_accepted_iff_partial",
    "Verif.Topology.C76_accepted_links_partial",
    "Verif.Topology.C76_access_violation",
    "Verif.Topology.C76_wired_violation"
   ],
   "note": "exact acceptance condition proved; access links without reverse are not checked and active wired links are always refused (two violations)"
  },
  {
   "property": "C77",
   "status": "partial",
   "theorems": [
    "Verif.Topology.C77_untouched_site_partial",
    "Verif.Topology.C77_existing_violation"
   ],
   "note": "sites the search leaves alone keep their sectors; C77_existing_violation for the others"
  },
  {
   "property": "C78",
   "status": "partial",
   "theorems": [
    "Verif.Topology.C78_written_for_active_links_partial"
   ],
   "note": "proved for links whose two directions mirror each other"
  },
  {
   "property": "C79",
   "status": "partial",
   "theorems": [
    "Verif.Topology.C79_demand",
    "Verif.Topology.C79_kept_or_connected",
    "Verif.Topology.C79_cn_served",
    "Verif.Topology.C79_radius_partial",
    "Verif.Topology.C79_cn_overwrites_violation"
   ],
   "note": "All parts proved except the radius clause for demand sites at the position of a CN when CN demand is enabled: C79_cn_overwrites_violation shows the user's demand site is replaced and loses its other connections."
  },
  {
   "property": "C80",
   "status": "proved",
   "theorems": [
    "Verif.Raster.C80_none_missed",
    "Verif.Raster.C80_only_cells"
   ],
   "note": "Exact rationals instead of floats."
  },
  {
   "property": "C81",
   "status": "proved",
   "theorems": [
    "Verif.Raster.C81_cellwise",
    "Verif.Raster.C81_rejects"
   ],
   "note": "Exact rationals instead of float32."
  },
  {
   "property": "C82",
   "status": "proved",
   "theorems": [
    "Verif.Raster.C82_nearest",
    "Verif.Raster.C82_covers"
   ],
   "note": "Raster without missing values, as stated."
  },
  {
   "property": "C83",
   "status": "proved",
   "theorems": [
    "Verif.C83_traffic_links_selected"
   ],
   "note": "Hypothesis: the sectors named by the link are sectors of the topology at its two ends."
  },
  {
   "property": "C84",
   "status": "proved",
   "theorems": [
    "Verif.C84_apply_never_fails"
   ],
   "note": "The hypothesis on ruled-out sites is part of the property."
  },
  {
   "property": "C85",
   "status": "partial",
   "theorems": [
    "Verif.C85_reported_capex_partial",
    "Verif.C85_existing_site_violation"
   ],
   "note": "Violated by the code: a CANDIDATE sector on an EXISTING site becomes PROPOSED and is charged by compute_capex though the optimizer charges nothing (C85_existing_site_violation: cost 78, budget 85, reported 178). Proved when no CANDIDATE or PROPOSED sector is on an EXISTING site."
  },
  {
   "property": "C86",
   "status": "proved",
   "theorems": [
    "Verif.C86_coverage_met",
    "Verif.C86_common_coverage_met"
   ],
   "note": "Exact feasibility; maximize_common_bandwidth covered by the second theorem."
  },
  {
   "property": "C87",
   "status": "proved",
   "theorems": [
    "Verif.C87_decided_links_kept"
   ],
   "note": "Exact feasibility; any loop-pruned flow."
  },
  {
   "property": "C88",
   "status": "proved",
   "theorems": [
    "Verif.C88_routing_respects_network",
    "Verif.C88_routing_path"
   ],
   "note": "Exact feasibility; the objective and solver are not modelled."
  },
  {
   "property": "C89",
   "status": "proved",
   "theorems": [
    "Verif.C89_counted_has_path",
    "Verif.C89_best_is_exact"
   ],
   "note": "Exact optimum; solver tolerance and time limit not modelled."
  },
  {
   "property": "C90",
   "status": "partial",
   "theorems": [
    "Verif.C90_common_bandwidth_partial",
    "Verif.C90_always_active_pop_violation",
    "Verif.C90_shared_place_violation"
   ],
   "note": "Proved for topologies without two sites at one place. Violated otherwise: (1) _get_ignore_sites ignores always-active POPs and ends of active links, which create_colocated_site_relationship forces, so a demand site that can never be served is counted; (2) two sites at one place both count as usable though only one can be selected."
  },
  {
   "property": "C91",
   "status": "partial",
   "theorems": [
    "Verif.C91_radio_partial",
    "Verif.C91_violation"
   ],
   "note": "Proved for radio links. Violated for wired links (C91_violation): traffic enters at a candidate POP that is not built."
  },
  {
   "property": "C92",
   "status": "proved",
   "theorems": [
    "Verif.C92_guidelines"
   ],
   "note": ""
  },
  {
   "property": "C93",
   "status": "proved",
   "theorems": [
    "Verif.C93_decided"
   ],
   "note": ""
  },
  {
   "property": "C94",
   "status": "proved",
   "theorems": [
    "Verif.C94_time"
   ],
   "note": "CN side for radio links of positive capacity."
  },
  {
   "property": "C95",
   "status": "partial",
   "theorems": [
    "Verif.C95_consistent_partial",
    "Verif.C95_violation",
    "Verif.C95_directions_violation"
   ],
   "note": "Proved except that a selected wired link may have an end that is not selected (C95_violation) and that one direction of a link with zero capacity the other way is selected alone (C95_directions_violation)."
  },
  {
   "property": "C96",
   "status": "partial",
   "theorems": [
    "Verif.C96_no_failure_partial",
    "Verif.C96_violation"
   ],
   "note": "Proved when every wireless link has sectors; C96_violation gives a feasible solution that makes the reader raise when one has none. A positive common bandwidth is assumed to come with traffic (the constraint that ties them is not modelled)."
  },
  {
   "property": "C97",
   "status": "partial",
   "theorems": [
    "Verif.C97_cost_partial",
    "Verif.C97_violation"
   ],
   "note": "Proved when the sectors of a node are selected together; C97_violation: the node is free of charge if its first sector is not selected."
  },
  {
   "property": "C98",
   "status": "partial",
   "theorems": [
    "Verif.Topology.C98_cost_partial",
    "Verif.Topology.C98_interference_partial",
    "Verif.Topology.C98_wired_violation",
    "Verif.Topology.C98_one_way_violation",
    "Verif.Topology.C98_island_violation",
    "Verif.C98_redundancy_partial"
   ],
   "note": "Proved for the cost/coverage phases (C98_cost_partial) the interference phase (C98_interference_partial) and the redundancy phase (C98_redundancy_partial) when planned two-way links are radio links, the two directions agree on sectors and on having capacity, and EXISTING sites with open sectors are connected in the result. False in general: a selected wired link becomes PROPOSED without sectors (C98_wired_violation), a link with capacity in one direction only becomes PROPOSED one way (C98_one_way_violation), and a link between EXISTING sites not connected to a POP keeps PROPOSED while its sectors are withdrawn (C98_island_violation); in each case the next phase raises a topology error."
  },
  {
   "property": "C99",
   "status": "proved",
   "theorems": [
    "Verif.C99_consistent"
   ],
   "note": "C99_consistent"
  },
  {
   "property": "C100",
   "status": "partial",
   "theorems": [
    "Verif.C100_one_per_location_partial",
    "Verif.C100_existing_cn_violation"
   ],
   "note": "Proved when no EXISTING CN shares its location with another site; false otherwise (C100_existing_cn_violation): an EXISTING CN stays in use beside the new DN."
  },
  {
   "property": "C101",
   "status": "partial",
   "theorems": [
    "Verif.C101_pool_never_raises_partial",
    "Verif.C101_candidate_pop_violation"
   ],
   "note": "Proved when every POP is in use or ruled out; false with CANDIDATE POPs (C101_candidate_pop_violation): they stay joined to the supersource and the assertion on the flow value fails."
  },
  {
   "property": "C102",
   "status": "partial",
   "theorems": [
    "Verif.C102_pool_covers_partial",
    "Verif.C102_isolated_dn_violation"
   ],
   "note": "Proved when every DN in use is reached over usable links from a POP in use; false for an isolated installed DN (C102_isolated_dn_violation), which makes the phase raise."
  },
  {
   "property": "C103",
   "status": "proved",
   "theorems": [
    "Verif.C103_disjoint_paths_exact"
   ],
   "note": "Shortest paths of networkx are a parameter with its documented meaning (a shortest walk to each node that has one); they always exist (shortestPaths_exist)."
  },
  {
   "property": "C104",
   "status": "proved",
   "theorems": [
    "Verif.Topology.C104_kml_links"
   ],
   "note": "The search for sites near a place is a parameter that returns loaded sites."
  },
  {
   "property": "C105",
   "status": "partial",
   "theorems": [
    "Verif.C105_accepted_devices_partial",
    "Verif.C105_project_range_violation"
   ],
   "note": "Sector ranges only if the project parameters are in range, which nothing checks (C105_project_range_violation)."
  },
  {
   "property": "C106",
   "status": "partial",
   "theorems": [
    "Verif.C106_site_per_building_partial",
    "Verif.C106_no_detection",
    "Verif.C106_reverse",
    "Verif.C106_most_los_violation"
   ],
   "note": "Holds except that the chosen site has the most lines of sight on its building only if lines to chosen sites of buildings treated before count twice (C106_most_los_violation)."
  },
  {
   "property": "C107",
   "status": "proved",
   "theorems": [
    "Verif.C107_input_sites",
    "Verif.C107_altitudes_known"
   ],
   "note": "Elevation data are arbitrary functions of the coordinates; rational arithmetic."
  },
  {
   "property": "C108",
   "status": "proved",
   "theorems": [
    "Verif.C108_detected_sites",
    "Verif.C108_highest",
    "Verif.C108_corner_altitude"
   ],
   "note": "The polygon test and the grid are parameters; the detection of corner candidates from polygon vertices is not modelled."
  },
  {
   "property": "C109",
   "status": "partial",
   "theorems": [
    "Verif.C109_bounds_partial",
    "Verif.C109_obstructions",
    "Verif.C109_order",
    "Verif.C109_threshold",
    "Verif.C109_symmetric",
    "Verif.C109_level",
    "Verif.C109_blocked",
    "Verif.C109_inner",
    "Verif.C109_sloped_violation"
   ],
   "note": "Exact clearance proved for level links (C109_level); bounds, symmetry, order, monotonicity in cells and threshold, blocking and clearance of the inner ellipse for all links. C109_sloped_violation shows that exactness, the threshold and monotonicity in the height fail on steep links. Real arithmetic, not floating point."
  },
  {
   "property": "C110",
   "status": "partial",
   "theorems": [
    "Verif.C110_copies_partial",
    "Verif.C110_wired_violation",
    "Verif.C110_unbound_violation",
    "Verif.C110_inactive_violation"
   ],
   "note": "C110_copies_partial characterises sites, sectors, links and demand connections exactly when the function returns; medium and confidence of a copied incoming link come from some outgoing link of a chosen DN (C110_wired_violation). Exceptions: C110_unbound_violation, C110_inactive_violation."
  },
  {
   "property": "C111",
   "status": "proved",
   "theorems": [
    "Verif.C111_setup"
   ],
   "note": "C111_setup: equivalence, for capacities of at least 0."
  },
  {
   "property": "C112",
   "status": "proved",
   "theorems": [
    "Verif.C112_settings"
   ],
   "note": "For scalars and enums; nested settings of devices are in C32."
  },
  {
   "property": "C113",
   "status": "partial",
   "theorems": [
    "Verif.C113_typos",
    "Verif.C113_template",
    "Verif.C113_file_partial",
    "Verif.C113_blank_violation",
    "Verif.C113_section_case_violation",
    "Verif.C113_subsection_violation",
    "Verif.C113_sector_params_violation"
   ],
   "note": "Typo check and template in full; that settings take effect only for sections spelled as in the template and keys without blanks. Four violation theorems."
  },
  {
   "property": "C114",
   "status": "proved",
   "theorems": [
    "Verif.C114_accepts"
   ],
   "note": ""
  },
  {
   "property": "C115",
   "status": "partial",
   "theorems": [
    "Verif.Sinr.C115_sinr",
    "Verif.Sinr.C115_succeeds_partial",
    "Verif.Sinr.C115_at_most_snr",
    "Verif.Sinr.C115_undisturbed",
    "Verif.Sinr.C115_client_violation"
   ],
   "note": "C115_sinr, C115_at_most_snr and C115_undisturbed hold in full whenever the analysis returns. C115_succeeds_partial says exactly when it stops with a KeyError; C115_client_violation is a witness."
  },
  {
   "property": "C116",
   "status": "partial",
   "theorems": [
    "Verif.Sinr.C116_succeeds_partial",
    "Verif.Sinr.C116_measurements",
    "Verif.Sinr.C116_power_partial",
    "Verif.Sinr.C116_backoff_violation",
    "Verif.Sinr.C116_switched_off_violation",
    "Verif.Sinr.C116_nan_violation"
   ],
   "note": "C116_measurements holds in full. C116_power_partial bounds the power and gives a level whose back-off is respected, not above the reported one; C116_backoff_violation shows the reported level can need more. C116_switched_off_violation and C116_nan_violation show the two other failures; C116_succeeds_partial says when it stops."
  },
  {
   "property": "C117",
   "status": "partial",
   "theorems": [
    "Verif.C117_routes",
    "Verif.C117_no_pop",
    "Verif.C117_service_partial",
    "Verif.C117_stale_violation"
   ],
   "note": "The routes and the marks are proved in full (C117_routes, C117_no_pop). That service survives holds only if no link was marked before (C117_service_partial); C117_stale_violation: two reports of the same topology with different routing types leave all links redundant though the demand site can be reached."
  },
  {
   "property": "C118",
   "status": "partial",
   "theorems": [
    "Verif.C118_table",
    "Verif.C118_reported",
    "Verif.C118_range",
    "Verif.C118_one_per_pair_partial",
    "Verif.C118_tolerance_violation"
   ],
   "note": "one entry per pair only if one direction is hardly used in percent (C118_tolerance_violation)"
  },
  {
   "property": "C119",
   "status": "partial",
   "theorems": [
    "Verif.C119_raises_exactly_partial",
    "Verif.C119_links_per_sector",
    "Verif.C119_links_per_sector_partial",
    "Verif.C119_distances",
    "Verif.C119_mcs",
    "Verif.C119_wired_violation",
    "Verif.C119_direct_violation"
   ],
   "note": "The report is made exactly if the oversubscription is not 0, a flow comes with a link in use, a POP is in use and every link in use has fitting sectors. Links per sector are exact as pairs of grid cells, and as pairs of sites if no cell holds two sites of a type. Violated by wired links and by plans without links in use."
  },
  {
   "property": "C120",
   "status": "proved",
   "theorems": [
    "Verif.C120_site_failures",
    "Verif.C120_link_failures",
    "Verif.C120_demand",
    "Verif.C120_availability",
    "Verif.C120_availability_none"
   ],
   "note": "C120_site_failures, C120_link_failures, C120_demand, C120_availability*; link failures assume that no wired link is in use, as stated"
  },
  {
   "property": "C121",
   "status": "partial",
   "theorems": [
    "Verif.C121_apart",
    "Verif.C121_best_partial",
    "Verif.C121_none",
    "Verif.C121_fails",
    "Verif.C121_best_violation"
   ],
   "note": "C121_apart holds for all inputs; C121_best_partial, C121_none and C121_fails cover the searches without pair rules (one channel, no angle limits); with several channels a node whose sectors serve two channels is dropped as if it covered nothing (C121_best_violation)"
  },
  {
   "property": "C122",
   "status": "partial",
   "theorems": [
    "Verif.C122_creation",
    "Verif.C122_always_partial",
    "Verif.C122_always_violation"
   ],
   "note": "C122_creation gives the exact condition; it holds when the width of a node is a multiple of three degrees or there is one node (C122_always_partial) and fails e.g. for nine nodes of 40 degrees (C122_always_violation)"
  },
  {
   "property": "C123",
   "status": "partial",
   "theorems": [
    "Verif.C123_dn_partial",
    "Verif.C123_cn_partial",
    "Verif.C123_dn_violation"
   ],
   "note": "Proved for devices with at most two sectors per node and for nodes whose sectors do not lie on both sides of north; C123_dn_violation is a device with three sectors per node for which the second creation fails. The circular mean is any function that returns the bearing of the sum of the unit vectors where that is rational."
  },
  {
   "property": "C124",
   "status": "proved",
   "theorems": [
    "Verif.C124_dn",
    "Verif.C124_cn"
   ],
   "note": ""
  },
  {
   "property": "C125",
   "status": "partial",
   "theorems": [
    "Verif.C125_shape",
    "Verif.C125_apart_partial",
    "Verif.C125_single"
   ],
   "note": "Shape for all devices; angles for devices with at most two sectors per node, an equivalence for one sector per node."
  },
  {
   "property": "C126",
   "status": "partial",
   "theorems": [
    "Verif.C126_one",
    "Verif.C126_all_partial",
    "Verif.C126_all_violation"
   ],
   "note": "One neighbour proved. Several neighbours: proved when all links can be seen from a multiple of three degrees without crossing north and the links are few; C126_all_violation shows the failure across north."
  },
  {
   "property": "C127",
   "status": "proved",
   "theorems": [
    "Verif.Geos.C127_great_circle",
    "Verif.Geos.C127_metric",
    "Verif.Geos.C127_distinct",
    "Verif.Geos.C127_meridian"
   ],
   "note": "Over the reals."
  },
  {
   "property": "C128",
   "status": "proved",
   "theorems": [
    "Verif.Geos.C128_moves",
    "Verif.Geos.C128_there",
    "Verif.Geos.C128_back",
    "Verif.Geos.C128_bearing"
   ],
   "note": "Over the reals; the poles are excluded as starting points, where bearings have no meaning."
  },
  {
   "property": "C129",
   "status": "partial",
   "theorems": [
    "Verif.Geos.C129_receiver_partial",
    "Verif.Geos.C129_meridian",
    "Verif.Geos.C129_violation"
   ],
   "note": "C129_violation: the computed azimuth can be wrong by 45 degrees for very long links; C129_receiver_partial bounds the error by the difference in longitude, C129_meridian shows it exact on a meridian."
  },
  {
   "property": "C130",
   "status": "proved",
   "theorems": [
    "Verif.Geos.C130_planar",
    "Verif.Geos.C130_flat",
    "Verif.Geos.C130_fails",
    "Verif.Geos.C130_symmetric",
    "Verif.Geos.C130_at_most",
    "Verif.Geos.C130_smaller"
   ],
   "note": "C130_smaller shows that the angle can be strictly smaller than that between the directions."
  },
  {
   "property": "C131",
   "status": "proved",
   "theorems": [
    "Verif.Geos.C131_length",
    "Verif.Geos.C131_elevation"
   ],
   "note": "Over the reals."
  },
  {
   "property": "C132",
   "status": "partial",
   "theorems": [
    "Verif.Geos.C132_rows",
    "Verif.Geos.C132_columns_partial",
    "Verif.Geos.C132_south_violation"
   ],
   "note": "C132_south_violation: south of the equator neighbours in rows closer to the equator are farther apart than the spacing. C132_columns_partial covers the rows that are not closer to the equator than the southern edge."
  },
  {
   "property": "C133",
   "status": "partial",
   "theorems": [
    "Verif.C133_sites",
    "Verif.C133_links",
    "Verif.C133_links_partial",
    "Verif.C133_hops",
    "Verif.C133_flow",
    "Verif.C133_balance",
    "Verif.C133_cost_partial"
   ],
   "note": "Proved in full except that sites closer than a grid cell share a hash (counted as pairs of cells and types, exact under CellsDistinct), and the sum of the costs needs nodes whose sectors share a status, as C14."
  },
  {
   "property": "C134",
   "status": "partial",
   "theorems": [
    "Verif.C134_raises_exactly",
    "Verif.C134_rows",
    "Verif.C134_links",
    "Verif.C134_links_partial",
    "Verif.C134_limit"
   ],
   "note": "Proved in full except that links are told apart by grid cells of their ends (exact under CellsDistinct)."
  },
  {
   "property": "C135",
   "status": "partial",
   "theorems": [
    "Verif.C135_raises_exactly",
    "Verif.C135_rows",
    "Verif.C135_angles",
    "Verif.C135_limit_partial",
    "Verif.C135_limit_violation"
   ],
   "note": "Rows, channels and angle marks proved. The mark for the sector limit is also set for links not in use (C135_limit_violation)."
  },
  {
   "property": "C136",
   "status": "proved",
   "theorems": [
    "Verif.C136_tables"
   ],
   "note": "For networks whose wired links have no sectors."
  },
  {
   "property": "C137",
   "status": "proved",
   "theorems": [
    "Verif.Kml.C137_sites",
    "Verif.Kml.C137_links",
    "Verif.Kml.C137_demand",
    "Verif.Kml.C137_connections",
    "Verif.Kml.C137_folders",
    "Verif.Kml.C137_raises_exactly"
   ],
   "note": "The columns taken from the link budget, the geometry and the flow are left out of the model."
  },
  {
   "property": "C138",
   "status": "partial",
   "theorems": [
    "Verif.Kml.C138_styles_partial",
    "Verif.Kml.C138_wellformed_partial",
    "Verif.Kml.C138_styles_violation",
    "Verif.Kml.C138_wellformed_violation"
   ],
   "note": "Violated for unreachable POPs, busy links out of use and negative demands (no such style), and for topology names with special characters (not escaped): C138_styles_violation, C138_wellformed_violation. The partial theorems give the exact condition for well-formedness and sufficient ones for the styles."
  },
  {
   "property": "C139",
   "status": "partial",
   "theorems": [
    "Verif.Kml.C139_reload_partial",
    "Verif.Kml.C139_rooftop_violation"
   ],
   "note": "Holds for sites not on rooftops, with suitable statuses; wired links, confidence levels, polarity and breakdowns are lost. A rooftop site makes loading fail: C139_rooftop_violation."
  },
  {
   "property": "C140",
   "status": "partial",
   "theorems": [
    "Verif.Kml.C140_nearest_unused_violation",
    "Verif.Kml.C140_named_partial",
    "Verif.Kml.C140_unnamed_violation"
   ],
   "note": "Named links join the sites they name. The search for the sites at the ends is never used (C140_nearest_unused_violation) and a file with an unnamed link is never loaded (C140_unnamed_violation), as a missing name is read as the empty text and not as None."
  },
  {
   "property": "C141",
   "status": "partial",
   "theorems": [
    "Verif.Csv.C141_dms",
    "Verif.Csv.C141_negative_violation",
    "Verif.Csv.C141_axis_violation"
   ],
   "note": "C141_dms gives the exact set of accepted texts and their values. Violated for a negative number of degrees with minutes (C141_negative_violation), and a latitude may be given as east (C141_axis_violation)."
  },
  {
   "property": "C142",
   "status": "partial",
   "theorems": [
    "Verif.Csv.C142_header_partial",
    "Verif.Csv.C142_duplicate_violation"
   ],
   "note": "Holds but for columns whose names only differ in capital letters or blanks: they are not noticed (C142_duplicate_violation)."
  },
  {
   "property": "C143",
   "status": "partial",
   "theorems": [
    "Verif.Csv.C143_sites_partial",
    "Verif.Csv.C143_mixed_violation",
    "Verif.Csv.C143_blank_violation",
    "Verif.Csv.C143_sku_violation",
    "Verif.Csv.C143_building_violation",
    "Verif.Csv.C143_location_violation",
    "Verif.Csv.C143_devices_partial",
    "Verif.Csv.C143_names_violation",
    "Verif.Csv.C143_altitude_violation",
    "Verif.Csv.C143_subscribers_violation"
   ],
   "note": "C143_sites_partial says exactly when a table is read and as what, for tables without repeated columns. Violated: an empty latitude or one plain number among angles makes the file fail, an empty device or a building column makes the making of sites fail, location types are ignored, names of digits change, an empty altitude turns the others into texts, a wrong number of subscribers raises a ValueError."
  },
  {
   "property": "C144",
   "status": "partial",
   "theorems": [
    "Verif.Csv.C144_links_partial",
    "Verif.Csv.C144_numbers_violation"
   ],
   "note": "For tables without repeated columns. Names of digits in a column of numbers do not match the same names in a column with arrows: C144_numbers_violation."
  },
  {
   "property": "C145",
   "status": "partial",
   "theorems": [
    "Verif.Budget.C145_distance_partial",
    "Verif.Budget.C145_range_partial",
    "Verif.Budget.C145_frequency_violation"
   ],
   "note": "False of the code for low carrier frequencies (C145_frequency_violation: a 1 GHz radio has a stronger signal at 8 km than at 6 km, the rain loss changes its sign). Proved for carriers of at least 20 GHz, rain rates of 0 or at least 1 mm/h and an availability below 100 percent, which covers the documented 60 GHz radios; the range theorem also has the conditions of C20 on rate tables."
  },
  {
   "property": "C146",
   "status": "partial",
   "theorems": [
    "Verif.Budget.C146_rain_partial",
    "Verif.Budget.C146_availability_partial",
    "Verif.Budget.C146_always_violation",
    "Verif.Budget.C146_nines_violation",
    "Verif.Budget.C146_oxygen"
   ],
   "note": "Oxygen: full. Rain: proved for carriers from 20 GHz (to 1000 GHz for the availability), links up to 10 km and availabilities up to 99.999 percent. False beyond: at 100 percent, which is accepted, every link budget raises (C146_always_violation); with many nines the rain loss drops again (C146_nines_violation)."
  },
  {
   "property": "C147",
   "status": "proved",
   "theorems": [
    "Verif.Budget.C147_antenna",
    "Verif.Budget.C147_scan",
    "Verif.Budget.C147_none"
   ],
   "note": "C147_antenna for the pattern of the first antenna of the file with 360 entries each, C147_scan, C147_none. Angles are at most 180 degrees, as the callers give them."
  },
  {
   "property": "C148",
   "status": "partial",
   "theorems": [
    "Verif.RadioFiles.C148_pattern_partial",
    "Verif.RadioFiles.C148_short_violation",
    "Verif.RadioFiles.C148_angle_violation"
   ],
   "note": "Proved for well formed files, with any number of antennas. False of the code otherwise: a last block that is too short is accepted (C148_short_violation), and the angles of the rows are not looked at (C148_angle_violation)."
  },
  {
   "property": "C149",
   "status": "partial",
   "theorems": [
    "Verif.RadioFiles.C149_rates_partial",
    "Verif.RadioFiles.C149_blank_violation",
    "Verif.RadioFiles.C149_unit_violation"
   ],
   "note": "Exact condition proved; it falls short of the claim: every blank line makes a file unreadable (C149_blank_violation), and the name of the back-off column may, unlike the others, have no addition (C149_unit_violation)."
  },
  {
   "property": "C150",
   "status": "partial",
   "theorems": [
    "Verif.Gis.C150_polygons_partial",
    "Verif.Gis.C150_boundary_partial",
    "Verif.Gis.C150_hole_violation"
   ],
   "note": "Proved for polygons without holes. False of the code otherwise: holes are read as polygons (C150_hole_violation)."
  },
  {
   "property": "C151",
   "status": "partial",
   "theorems": [
    "Verif.Gis.C151_accepted_partial",
    "Verif.Gis.C151_time_violation",
    "Verif.Gis.C151_axis_violation",
    "Verif.Gis.C151_building_violation",
    "Verif.Gis.C151_times",
    "Verif.Gis.C151_rejected_partial"
   ],
   "note": "Exact condition proved; it falls short of the claim: elevation data with a collection time raise a TypeError (C151_time_violation); a vertical axis with the standard direction UP is rejected (C151_axis_violation); for buildings without authority the message is lost (C151_building_violation)."
  },
  {
   "property": "C152",
   "status": "partial",
   "theorems": [
    "Verif.Gis.C152_sum_partial",
    "Verif.Gis.C152_difference_partial",
    "Verif.Gis.C152_given",
    "Verif.Gis.C152_finer_height_violation",
    "Verif.Gis.C152_finer_terrain_violation",
    "Verif.Gis.C152_difference_violation",
    "Verif.Gis.C152_void_violation"
   ],
   "note": "Proved for data on the same grid. False of the code otherwise: with one raster finer than the other and cut to the area the sum is always rejected (C152_finer_height_violation, C152_finer_terrain_violation), differences are not resampled (C152_difference_violation), and missing terrain values are added up as if they were elevations (C152_void_violation)."
  },
  {
   "property": "C153",
   "status": "partial",
   "theorems": [
    "Verif.Gis.C153_archive_partial",
    "Verif.Gis.C153_folder_violation",
    "Verif.Gis.C153_rejected",
    "Verif.Gis.C153_names_partial"
   ],
   "note": "Proved for archives without entries for folders. With an entry for the folder of macOS a good archive is rejected (C153_folder_violation)."
  },
  {
   "property": "C154",
   "status": "partial",
   "theorems": [
    "Verif.Gis.C154_buildings_partial",
    "Verif.Gis.C154_collection_violation"
   ],
   "note": "Proved if the common part of building and boundary is one or several polygons where they overlap; a building for which it is a collection of geometries is dropped (C154_collection_violation). What shapely answers is a hypothesis."
  },
  {
   "property": "C155",
   "status": "proved",
   "theorems": [
    "Verif.Gis.C155_corners",
    "Verif.Gis.C155_detected"
   ],
   "note": "The angle function is a parameter; law_of_cosines_utm is the subject of C130."
  },
  {
   "property": "C156",
   "status": "proved",
   "theorems": [
    "Verif.Topology.C156_ends",
    "Verif.Topology.C156_input_kept",
    "Verif.Topology.C156_result_built"
   ],
   "note": "Solver answers, interference inputs, maximum flows and the sector search are parameters."
  },
  {
   "property": "C157",
   "status": "proved",
   "theorems": [
    "Verif.C157_highest_coverage",
    "Verif.C157_half_served"
   ],
   "note": "That the answers of the solver satisfy the constraints is a hypothesis for the share of demand served."
  },
  {
   "property": "C158",
   "status": "proved",
   "theorems": [
    "Verif.C158_all_tried",
    "Verif.C158_infeasible"
   ],
   "note": "That the solver decides the problem for 50 percent, and that the POPs can carry half of the demand, are hypotheses; for the other case see C50 and C159."
  },
  {
   "property": "C159",
   "status": "partial",
   "theorems": [
    "Verif.C159_few_pops_partial",
    "Verif.C159_oversubscription_violation",
    "Verif.C159_num_sites_violation"
   ],
   "note": "Proved without oversubscription and with one site per demand site. False of the code otherwise: the message compares with the demand before oversubscription (C159_oversubscription_violation) and counts each demand site once (C159_num_sites_violation)."
  },
  {
   "property": "C160",
   "status": "partial",
   "theorems": [
    "Verif.C160_no_loose_link",
    "Verif.C160_connected_partial",
    "Verif.C160_second_optional",
    "Verif.C160_budget_spent"
   ],
   "note": "Proved for POPs and sites with a sector in the input; sites without sectors are not looked at by the clean-up (C13_no_sector_violation)."
  },
  {
   "property": "C161",
   "status": "partial",
   "theorems": [
    "Verif.C161_hop_limit",
    "Verif.C161_plan_longer_violation"
   ],
   "note": "Proved for the usable network of the input in runs without extra POPs. The plan itself may need more hops than the maximum, also with solver answers that satisfy all constraints (C161_plan_longer_violation)."
  },
  {
   "property": "C162",
   "status": "partial",
   "theorems": [
    "Verif.C162_order_partial"
   ],
   "note": "Proved if the connectivity tables agree; sort() does not sort those. Same solver answers for same problems are implied by the solver being a function."
  },
  {
   "property": "C163",
   "status": "partial",
   "theorems": [
    "Verif.C163_final_links_partial"
   ],
   "note": "Proved for runs without extra POPs whose input has known sectors; that the answer to the interference problem satisfies its constraints is a hypothesis. Wired links may end at sites that are not built (C95_violation)."
  },
  {
   "property": "C164",
   "status": "proved",
   "theorems": [
    "Verif.Budget.C164_clear_air",
    "Verif.Budget.C164_reference"
   ],
   "note": "Over the reals. The rain reference is proved within one percent, for carriers from 20 to 1000 GHz and at least 1 mm/h."
  },
  {
   "property": "C165",
   "status": "partial",
   "theorems": [
    "Verif.C165_candidate_graph_partial",
    "Verif.C165_buildings_partial",
    "Verif.C165_complete_partial"
   ],
   "note": "Proved if the confidence depends on the places only and is symmetric (see C23), and the places of detected sites are known. The links between new sites are then exact (C165_complete_partial); missing are those to sites of the base topology (see C26_base_violation)."
  },
  {
   "property": "C166",
   "status": "partial",
   "theorems": [
    "Verif.C166_run_partial",
    "Verif.C166_unavailable_violation"
   ],
   "note": "Proved if no new site is UNAVAILABLE or UNREACHABLE. Such a site, which a KML folder can name, makes the whole phase fail (C166_unavailable_violation)."
  },
  {
   "property": "C167",
   "status": "proved",
   "theorems": [
    "Verif.Topology.C167_input_kept",
    "Verif.Topology.C167_result_built",
    "Verif.Topology.C167_demand"
   ],
   "note": "The grid of uniform demand may not terminate (C58); then there is no result to speak of. The report written after the run is not part of the call modelled."
  },
  {
   "property": "C168",
   "status": "proved",
   "theorems": [
    "Verif.Topology.C168_early",
    "Verif.Topology.C168_demand_placed"
   ],
   "note": ""
  },
  {
   "property": "C169",
   "status": "partial",
   "theorems": [
    "Verif.C169_archive_partial",
    "Verif.C169_rejected",
    "Verif.C169_devices_violation",
    "Verif.C169_suffix_violation"
   ],
   "note": "Proved for archives with sites.csv and links.csv whose rows have different names, one device each, no building and different ids. A row without device column for which two devices suit is renamed, and every link that uses its name is then rejected (C169_devices_violation). A KML file whose name ends in capital letters is not recognised (C169_suffix_violation). KML files are the subject of C80 and others."
  },
  {
   "property": "C170",
   "status": "partial",
   "theorems": [
    "Verif.Exclusion.C170_zones_partial",
    "Verif.Exclusion.C170_unreadable",
    "Verif.Exclusion.C170_units_violation"
   ],
   "note": "Violated: the corners of the zones are longitudes and latitudes and are compared with UTM coordinates in metres, so zones never have an effect (C170_units_violation, for polygons within their convex hull, longitudes up to 180 and eastings above 180). Proved is which polygons are zones and that lines keep away from them if the numbers are taken in one coordinate system."
  },
  {
   "property": "C171",
   "status": "partial",
   "theorems": [
    "Verif.GeoLocation.C171_reads",
    "Verif.GeoLocation.C171_copy_partial",
    "Verif.GeoLocation.C171_moved",
    "Verif.GeoLocation.C171_copy_violation",
    "Verif.GeoLocation.C171_move_violation"
   ],
   "note": "Reading is proved in full (C171_reads). Copies are the same place if the location was given by latitude and longitude or neither was read; otherwise a location given outside of its zone changes zone (C171_copy_violation), and new coordinates in the zone are ignored (C171_move_violation)."
  },
  {
   "property": "C172",
   "status": "partial",
   "theorems": [
    "Verif.Exclusion.C172_one_zone_partial",
    "Verif.Exclusion.C172_edge_violation",
    "Verif.Exclusion.C172_equator_violation"
   ],
   "note": "Proved within one zone in which the projection gives the distances. Across the meridian between two zones and across the equator there is never a line of sight, since each site has coordinates in its own zone (C172_edge_violation, C172_equator_violation, with bounds on UTM coordinates as hypothesis)."
  },
  {
   "property": "C173",
   "status": "partial",
   "theorems": [
    "Verif.C173_cheapest_partial",
    "Verif.C173_full",
    "Verif.C173_distribution_violation"
   ],
   "note": "Proved: least total shortage, and cheapest among all plans that protect every DN at least as well; in full if some plan leaves no shortage (C173_full). Violated otherwise: the shortage found for each DN by the first solve is kept, and a plan with the same total but other DNs short may be cheaper (C173_distribution_violation). Optimal answers of the solver are assumed; time limit and relative stop are not modelled."
  },
  {
   "property": "C174",
   "status": "proved",
   "theorems": [
    "Verif.C174_promise"
   ],
   "note": "For the step as called from optimize_topology; that the answer of the solver meets the constraints is a hypothesis."
  },
  {
   "property": "C175",
   "status": "partial",
   "theorems": [
    "Verif.C175_budget_kept_partial"
   ],
   "note": "Proved if no sector of an EXISTING site is CANDIDATE or PROPOSED; such sectors are switched on without being paid for (C85_existing_site_violation)."
  },
  {
   "property": "C176",
   "status": "proved",
   "theorems": [
    "Verif.C176_cheapest",
    "Verif.C176_step"
   ],
   "note": "Optimality of the answer of the solver (no time limit, no gap) is a hypothesis; without maximize_common_bandwidth."
  },
  {
   "property": "C177",
   "status": "proved",
   "theorems": [
    "Verif.C177_most_served"
   ],
   "note": "Optimality of the answer of the solver (no time limit, no gap) is a hypothesis; without maximize_common_bandwidth."
  },
  {
   "property": "C178",
   "status": "partial",
   "theorems": [
    "Verif.C178_extra_pops_partial",
    "Verif.C178_all_added"
   ],
   "note": "C178_all_added holds in full. The number and the places (C178_extra_pops_partial) are proved if the answer of the solver satisfies its constraints, no two usable POPs of the input are at one place (C54_colocated_pops_violation) and no DN in use has a POP at its place."
  },
  {
   "property": "C179",
   "status": "proved",
   "theorems": [
    "Verif.C179_fairest",
    "Verif.C179_common_bandwidth"
   ],
   "note": "For a solve that ends with an optimum."
  },
  {
   "property": "C180",
   "status": "proved",
   "theorems": [
    "Verif.C180_cheapest"
   ],
   "note": "For a solve that ends with an optimum and costs that are not negative."
  },
  {
   "property": "C181",
   "status": "partial",
   "theorems": [
    "Verif.C181_coverage_built_partial",
    "Verif.C181_no_connectable_violation"
   ],
   "note": "Proved if some demand site is connectable. If there are demand sites and none is connectable, min() of an empty list raises ValueError (C181_no_connectable_violation)."
  },
  {
   "property": "C182",
   "status": "proved",
   "theorems": [
    "Verif.C182_worst_case"
   ],
   "note": "Antennas along their sectors. The comparison with power control is under the hypotheses of C116_power_partial (rate tables without gaps, minimum power within the maximum)."
  },
  {
   "property": "C183",
   "status": "partial",
   "theorems": [
    "Verif.C183_shorter_links",
    "Verif.C183_most_served_partial",
    "Verif.C183_less_served_violation"
   ],
   "note": "The preference among networks that serve as much is proved. That nothing more could be served is false: the two parts of the objective are added without a factor that would put demand first; the theorem bounds what is given up by twice the number of links over the total demand, and C183_less_served_violation has an instance where all demand could be served and every best solution serves a fifth. Solves stopped early by gap or time are not modelled."
  },
  {
   "property": "C184",
   "status": "proved",
   "theorems": [
    "Verif.Exclusion.C184_cylinder",
    "Verif.Exclusion.C184_ellipsoid",
    "Verif.Exclusion.C184_own_parameter"
   ],
   "note": "Over the real numbers, the cells left out by the cylindrical model excepted (Counted, as in C27), and for the ellipsoidal model the cells that lie inside the threshold ellipse seen from above (as in C109)."
  },
  {
   "property": "C185",
   "status": "proved",
   "theorems": [
    "Verif.Topology.C185_capacities"
   ],
   "note": "The link budget is a parameter; it is modelled and treated in the claims on link budgets (C17 to C19)."
  },
  {
   "property": "C186",
   "status": "proved",
   "theorems": [
    "Verif.C186_counted_has_path",
    "Verif.C186_enough_counted"
   ],
   "note": "Ideal solver: constraints hold exactly and the optimum is found. A network can also serve demand over sites that are not built (C91); the comparison leaves such demand out."
  },
  {
   "property": "C187",
   "status": "proved",
   "theorems": [
    "Verif.C187_reported_routing",
    "Verif.C187_no_solution"
   ],
   "note": "Ideal solver. EXISTING sectors are left out of the comparison, as the routing gives them no air time (C49)."
  },
  {
   "property": "C188",
   "status": "partial",
   "theorems": [
    "Verif.C188_common_bandwidth",
    "Verif.C188_shorter_links",
    "Verif.C188_fairest_partial",
    "Verif.C188_total_instead",
    "Verif.C188_no_bandwidth_violation"
   ],
   "note": "Ideal solver. Bandwidth is traded for more or shorter links: the bound is twice the number of radio links over total demand times number of demand sites. C188_no_bandwidth_violation: a network that serves all demand exists, and the phase reports no common bandwidth and serves nothing, because a short link from a DN without backhaul scores higher."
  },
  {
   "property": "C189",
   "status": "partial",
   "theorems": [
    "Verif.C189_planned",
    "Verif.C189_given_up_partial",
    "Verif.C189_given_up_violation"
   ],
   "note": "Proved for runs that end with a plan, and for all ends of runs without the redundancy step whose POP proposal, if any, is set up without exception. C189_given_up_violation: a run given up in the constructor of the POP proposal leaves all three parameters reversed."
  },
  {
   "property": "C190",
   "status": "partial",
   "theorems": [
    "Verif.C190_only_asked",
    "Verif.C190_all_asked_partial",
    "Verif.C190_given_kept",
    "Verif.C190_outside_ignored",
    "Verif.C190_unsuitable_rejected",
    "Verif.C190_row_lost_violation"
   ],
   "note": "For all_asked, device SKUs are assumed to differ. C190_row_lost_violation: a row without device is dropped without a message if the device list has none of its kind."
  },
  {
   "property": "C191",
   "status": "partial",
   "theorems": [
    "Verif.C191_fails_iff",
    "Verif.C191_found",
    "Verif.C191_sites_partial",
    "Verif.C191_other_sectors_violation"
   ],
   "note": "C191_other_sectors_violation: the link between the sites is given even if it uses other sectors of them."
  },
  {
   "property": "C192",
   "status": "proved",
   "theorems": [
    "Verif.C192_sectors",
    "Verif.C192_routing",
    "Verif.C192_polarities",
    "Verif.C192_redundancy"
   ],
   "note": "Sets are lists in the model; the order of their elements is not claimed."
  },
  {
   "property": "C193",
   "status": "proved",
   "theorems": [
    "Verif.Plan.C193_unused_never_restrict"
   ],
   "note": ""
  },
  {
   "property": "C194",
   "status": "proved",
   "theorems": [
    "Verif.C194_redundancy_cost"
   ],
   "note": ""
  }
 ]
}