{
 "claims": [
  {
   "property": "C01",
   "status": "proved",
   "theorems": [
    "Verif.Baseline.baseline_roundtrip",
    "Verif.Baseline.encode_accepts_iff"
   ],
   "note": "Empty or unequal-length arrays are undefined behaviour in the compiled code and are excluded by the acceptance theorem."
  },
  {
   "property": "C02",
   "status": "proved",
   "theorems": [
    "Verif.Baseline.baseline_order_embedding",
    "Verif.Baseline.baseline_count_distinct"
   ],
   "note": ""
  },
  {
   "property": "C03",
   "status": "proved",
   "theorems": [
    "Verif.Baseline.baseline_no_overflow"
   ],
   "note": ""
  },
  {
   "property": "C04",
   "status": "proved",
   "theorems": [
    "Verif.Baseline.flip_decodes_swapped",
    "Verif.Baseline.flip_flip",
    "Verif.Baseline.flip_succeeds"
   ],
   "note": ""
  },
  {
   "property": "C05",
   "status": "partial",
   "theorems": [
    "Verif.Baseline.miriad_roundtrip_partial",
    "Verif.Baseline.miriad_counterexample"
   ],
   "note": "False of the code: pairs with the first antenna above 255 and the second at most 255 collide with other pairs. The partial theorem characterises exactly which single pairs survive."
  },
  {
   "property": "C06",
   "status": "partial",
   "theorems": [
    "Verif.Baseline.decode_elementwise_partial",
    "Verif.Baseline.decode_mixed_counterexample"
   ],
   "note": "False for arrays that mix numbering schemes; the partial theorem is an exact characterisation."
  },
  {
   "property": "C07",
   "status": "proved",
   "theorems": [
    "Verif.Slices.convert_picks",
    "Verif.Slices.convert_flag",
    "Verif.Slices.convert_max_nslice",
    "Verif.Slices.slicify_picks",
    "Verif.Slices.convert_descending_counterexample",
    "Verif.Slices.slicify_descending_counterexample",
    "Verif.Slices.slicify_repeated_counterexample",
    "Verif.Slices.convert_empty_counterexample"
   ],
   "note": "Proved for every slice, integer, non-empty mask and strictly increasing non-empty list. False for descending, repeated and empty lists (witness theorems)."
  },
  {
   "property": "C08",
   "status": "proved",
   "theorems": [
    "Verif.Hdf5.read_selected",
    "Verif.Hdf5.lookup_total",
    "Verif.Hdf5.shape_predicted",
    "Verif.Hdf5.read_ndarray_counterexample"
   ],
   "note": "Any number of axes. Integer ndarrays (as opposed to lists) are read wrongly, shown by a witness; h5py allows at most one index list."
  },
  {
   "property": "C09",
   "status": "proved",
   "theorems": [
    "Verif.Hdf5.write_selected",
    "Verif.Hdf5.write_then_read"
   ],
   "note": "Any number of axes, selections without repeated positions."
  },
  {
   "property": "C10",
   "status": "proved",
   "theorems": [
    "Verif.BltAxis.blt_order_sound",
    "Verif.BltAxis.blt_order_none",
    "Verif.BltAxis.blt_order_assertion_counterexample"
   ],
   "note": "A returned order is the actual order; None means no listed order holds. The internal assertion can fire on valid data, recorded as a counterexample."
  },
  {
   "property": "C11",
   "status": "proved",
   "theorems": [
    "Verif.BltAxis.rect_baseline_major",
    "Verif.BltAxis.rect_time_major",
    "Verif.BltAxis.rect_complete",
    "Verif.BltAxis.rect_hint_counterexample"
   ],
   "note": "Sound and complete without a blt_order hint; with a hint, sound provided the hint is true and no (baseline,time) pair repeats; counterexample shows the short cut accepts duplicate rows."
  },
  {
   "property": "C12",
   "status": "proved",
   "theorems": [
    "Verif.Blt.reorder_blts_sorts",
    "Verif.Blt.reorder_blts_autos_first",
    "Verif.Blt.reorder_blts_refuses",
    "Verif.Blt.reorder_blts_index",
    "Verif.Blt.reorder_blts_index_counterexample",
    "Verif.Blt.reorder_autos_rect_counterexample"
   ],
   "note": "Named orders are proved to permute whole records and sort them, with autos_first; argsort ties are left open (any argsort). For an explicit index array the length is the only thing checked by the code besides range, see the counterexample theorems for what the code accepts but should not."
  },
  {
   "property": "C13",
   "status": "proved",
   "theorems": [
    "Verif.Conj.conjugate_rows",
    "Verif.Conj.convention_established",
    "Verif.Conj.conjugate_twice",
    "Verif.Conj.conjugate_numbering",
    "Verif.Conj.conjugate_refuses",
    "Verif.Conj.conjugate_numbering_counterexample",
    "Verif.Conj.conjugate_flags_counterexample",
    "Verif.Conj.conjugate_layout_counterexample"
   ],
   "note": "Antennas, uvw and visibilities are proved as stated, for every convention. Three defects are recorded as theorems: flags and sample counts are not moved to the conjugate polarization; baseline numbers can mix two formulas; the rectangularity attributes go stale."
  },
  {
   "property": "C14",
   "status": "partial",
   "theorems": [
    "Verif.AntPair.antpair2ind_exact",
    "Verif.AntPair.antpair2ind_unordered_partial",
    "Verif.AntPair.antpair2ind_auto",
    "Verif.AntPair.laidOut_of_rect",
    "Verif.AntPair.antpair2ind_unordered_counterexample"
   ],
   "note": "ordered=True is proved in full. ordered=False is false as stated: when rows of (j, i) precede rows of (i, j) the descending slice can be empty (counterexample); it is proved when the rows of (i, j) come first."
  },
  {
   "property": "C15",
   "status": "proved",
   "theorems": [
    "Verif.Cache.caches_fresh",
    "Verif.Cache.caches_fresh_layout",
    "Verif.Cache.orientation_stale_counterexample",
    "Verif.Cache.early_query_counterexample"
   ],
   "note": "caches_fresh covers every history of lookups and assignments to the antenna and polarization arrays; caches_fresh_layout adds changes of the attributes that clear nothing. Two limits are shown by counterexample: changing telescope.x_orientation leaves stale answers for polarization names, and a lookup made while the layout attributes are untruthful leaves a wrong answer behind."
  },
  {
   "property": "C16",
   "status": "proved",
   "theorems": [
    "Verif.Pol.conj_feed_table",
    "Verif.Pol.conj_hv_counterexample",
    "Verif.Pol.conj_involution",
    "Verif.Pol.conj_name_involution",
    "Verif.Pol.conj_name_number",
    "Verif.Pol.conj_swaps_feeds",
    "Verif.Pol.conj_total",
    "Verif.Pol.jnum_roundtrip",
    "Verif.Pol.oriented_names",
    "Verif.Pol.parse_polstr_stable",
    "Verif.Pol.pollist_roundtrip",
    "Verif.Pol.polnum_domain",
    "Verif.Pol.polnum_roundtrip",
    "Verif.Pol.polstr_case_insensitive"
   ],
   "note": "Tables are decided in full; hv strings with x_orientation fail as in the counterexample."
  },
  {
   "property": "C17",
   "status": "proved",
   "theorems": [
    "Verif.Pol.reorder_conj_succeeds_iff",
    "Verif.Pol.reorder_conj_correct"
   ],
   "note": ""
  },
  {
   "property": "C18",
   "status": "proved",
   "theorems": [
    "Verif.Pol.reorder_pols_correct",
    "Verif.Pol.reorder_pols_index_counterexample"
   ],
   "note": "Named orders are permutations into the documented order; a user index array is not checked (counterexample)."
  },
  {
   "property": "C19",
   "status": "proved",
   "theorems": [
    "Verif.PhaseCat.generateId_fresh",
    "Verif.PhaseCat.generateId_default"
   ],
   "note": ""
  },
  {
   "property": "C20",
   "status": "partial",
   "theorems": [
    "Verif.PhaseCat.history_consistent_partial",
    "Verif.PhaseCat.history_rows",
    "Verif.PhaseCat.merge_repeated_counterexample"
   ],
   "note": "Holds for every sequence of operations in which merges name each entry once. merge_phase_centers([0, 0]) removes the entry its own rows point at (counterexample)."
  },
  {
   "property": "C21",
   "status": "partial",
   "theorems": [
    "Verif.PhaseCat.consolidate_keeps",
    "Verif.PhaseCat.combined_rows_partial",
    "Verif.PhaseCat.consolidate_twins_counterexample"
   ],
   "note": "consolidate_keeps is unconditional for the object whose catalog is changed. That every row of the other object still finds its entry needs that no entry matches two entries of the reference catalog; otherwise one entry takes the place of both in turn and one ID is lost (counterexample)."
  },
  {
   "property": "C22",
   "status": "proved",
   "theorems": [
    "Verif.FreqSort.sort_freq_windows",
    "Verif.FreqSort.sort_freq_channels",
    "Verif.FreqSort.sort_freq_index",
    "Verif.FreqSort.sort_freq_index_ok",
    "Verif.FreqSort.sort_freq_noop",
    "Verif.FreqSort.sort_freq_none"
   ],
   "note": "For any argsort that sorts, stable or not. None stands for the identity arrangement. Hypothesis: every channel belongs to a listed window, windows are listed once and are not empty."
  },
  {
   "property": "C23",
   "status": "partial",
   "theorems": [
    "Verif.FlexPol.roundtrip_partial",
    "Verif.FlexPol.roundtrip_fails",
    "Verif.FlexPol.roundtrip_counterexample",
    "Verif.FlexPol.convert_channels",
    "Verif.FlexPol.convert_refuses"
   ],
   "note": "Conversion proved for all objects: each visibility goes to a channel of its frequency and width in a window of its polarization. The way back restores the object when no two windows have the same channels. It is false in general: with two windows of equal channels and several polarizations the way back raises ValueError, proved for all such objects."
  },
  {
   "property": "C24",
   "status": "partial",
   "theorems": [
    "Verif.Redund.find_clusters_strict",
    "Verif.Redund.find_clusters_strict_succeeds",
    "Verif.Redund.find_clusters_loose_partial",
    "Verif.Redund.find_clusters_loose_counterexample",
    "Verif.Redund.grid_partition"
   ],
   "note": "Full statement for strict=True and for the grid algorithm. Without strict, locations in a chain longer than the tolerance are in no group (counterexample); what is proved is that groups are disjoint, non-empty and complete. Exact arithmetic; the hash of a frozenset is assumed injective."
  },
  {
   "property": "C25",
   "status": "proved",
   "theorems": [
    "Verif.Redund.find_clusters_strict",
    "Verif.Redund.grid_redundant",
    "Verif.Redund.grid_groups_apart",
    "Verif.Redund.grid_far_members_counterexample",
    "Verif.Redund.grid_equal_vectors_counterexample",
    "Verif.Redund.grid_near_vectors_counterexample"
   ],
   "note": "Grid: every member is closer than the tolerance to the first one, any two differ by at most 3/4 tol per coordinate (up to 1.3 tol in distance). The counterexamples show that the bound tol itself fails, and that equal vectors can be put into different groups."
  },
  {
   "property": "C26",
   "status": "partial",
   "theorems": [
    "Verif.Flag.apply_bl_exact",
    "Verif.Flag.apply_bl_monotone",
    "Verif.Flag.apply_bl_labels",
    "Verif.Flag.apply_bl_raises",
    "Verif.Flag.apply_wf_exact",
    "Verif.Flag.apply_an_exact",
    "Verif.Flag.apply_pol_order_counterexample",
    "Verif.Flag.apply_times_sign_counterexample",
    "Verif.Flag.apply_row_order_counterexample",
    "Verif.Flag.apply_reversed_counterexample"
   ],
   "note": "Monotonicity and exactness are proved for all inputs, for the three types. Matching by label holds under the stated alignment (same time order within each pair, same polarization order); four counterexamples show the misplacements when it fails: polarization order, sign of the time comparison, row order, pair direction."
  },
  {
   "property": "C27",
   "status": "proved",
   "theorems": [
    "Verif.Collapse.or_collapse_iff",
    "Verif.Collapse.and_collapse_iff",
    "Verif.Collapse.or_collapse_two_stage",
    "Verif.Collapse.and_collapse_two_stage",
    "Verif.Collapse.bool_collapse_refuses"
   ],
   "note": "Per cell of the collapsed array."
  },
  {
   "property": "C28",
   "status": "partial",
   "theorems": [
    "Verif.Collapse.mean_collapse_eq",
    "Verif.Collapse.mean_collapse_default",
    "Verif.Collapse.mean_collapse_no_nan",
    "Verif.Collapse.mean_collapse_zero_weight",
    "Verif.Collapse.mean_collapse_ignores_zero_weight",
    "Verif.Collapse.mean_collapse_ignores_inf",
    "Verif.Collapse.mean_collapse_perm",
    "Verif.Collapse.mean_collapse_between",
    "Verif.Collapse.mean_collapse_two_stage",
    "Verif.Collapse.absmean_collapse_eq",
    "Verif.Collapse.quadmean_collapse",
    "Verif.Collapse.mean_collapse_nan_counterexample",
    "Verif.Collapse.mean_collapse_tiny_weight_counterexample"
   ],
   "note": "Proved for data without NaN, in exact arithmetic. The full statement fails: a NaN of zero weight makes the cell NaN, and a total weight in (0, 1e-10] gives infinity; both are shown on concrete cells."
  },
  {
   "property": "C29",
   "status": "partial",
   "theorems": [
    "Verif.Flag.to_baseline_wf_partial",
    "Verif.Flag.to_baseline_wf_pols",
    "Verif.Flag.to_baseline_an",
    "Verif.Flag.to_baseline_unsorted_counterexample"
   ],
   "note": "Proved for waterfalls with increasing times whose times are separated by more than the tolerance. False for other orders: the counterexample joins two waterfalls with __add__ and broadcasts the sum."
  },
  {
   "property": "C30",
   "status": "proved",
   "theorems": [
    "Verif.Flag.to_waterfall_bl",
    "Verif.Flag.to_waterfall_an"
   ],
   "note": ""
  },
  {
   "property": "C31",
   "status": "partial",
   "theorems": [
    "Verif.Add.add_label_sets",
    "Verif.Add.add_row_metadata",
    "Verif.Add.add_keeps_this",
    "Verif.Add.add_pads",
    "Verif.Add.add_keeps_other_partial",
    "Verif.Add.overlapsFirst_of",
    "Verif.Add.add_keeps_other_counterexample"
   ],
   "note": "Labels, metadata, cells of the first object and padding: proved without condition. Cells of the second object: only if along each axis its labels that both objects have come before the new ones (in particular if an axis is disjoint or contained); without this the claim is false (counterexample: two frequencies exchange their visibilities)."
  },
  {
   "property": "C32",
   "status": "proved",
   "theorems": [
    "Verif.Add.add_outcome",
    "Verif.Add.add_never_loses_this"
   ],
   "note": "Exact outcome for all objects with distinct labels."
  },
  {
   "property": "C33",
   "status": "partial",
   "theorems": [
    "Verif.Concat.concat_blt",
    "Verif.Concat.concat_freq",
    "Verif.Concat.concat_pol",
    "Verif.Concat.concat_accepts_partial",
    "Verif.Concat.concat_times_counterexample",
    "Verif.Concat.concat_flex_counterexample"
   ],
   "note": "Blocks, unchanged attributes and counts: proved for any number of objects on every axis. Refusal of incompatible inputs: the exact condition is proved, but it does not cover all incompatible inputs (times along frequency and polarization, polarizations of flexible windows along baseline-time: counterexamples)."
  },
  {
   "property": "C34",
   "status": "partial",
   "theorems": [
    "Verif.Select.select_exact",
    "Verif.Select.select_rows_exact",
    "Verif.Select.select_chans_exact",
    "Verif.Select.select_cells",
    "Verif.Select.select_labels",
    "Verif.Select.select_counts",
    "Verif.Select.select_windows",
    "Verif.Select.select_bl_numbers",
    "Verif.Select.select_pair_direction_counterexample",
    "Verif.Select.select_freq_chans_counterexample",
    "Verif.Select.select_empty_counterexample",
    "Verif.Select.select_bls_pols_counterexample",
    "Verif.Select.select_freqs_refused",
    "Verif.Select.select_one_per_window_counterexample"
   ],
   "note": "Rows, channels, polarizations, windows and cells are characterised exactly for every request that is not refused. Documented effects refuted by witnesses: pair direction with rows in both directions, freq_chans with repeated frequencies, empty frequency or polarization lists, bls mixing tuples with and without polarization, and a ValueError from an empty array when one channel is chosen from each of several windows or one frequency is named twice (select_freqs_refused says exactly when)."
  },
  {
   "property": "C35",
   "status": "partial",
   "theorems": [
    "Verif.Select.select_commute_partial",
    "Verif.Select.select_both_partial",
    "Verif.Select.select_rows_chans",
    "Verif.Select.select_blt_inds_counterexample",
    "Verif.Select.select_bls_counterexample"
   ],
   "note": "Proved for all criteria on values when each pair occurs in one direction; blt_inds and bls with both directions do not commute (witnesses). Row and channel selections always commute."
  },
  {
   "property": "C36",
   "status": "partial",
   "theorems": [
    "Verif.TimeSel.select_times",
    "Verif.TimeSel.select_lsts",
    "Verif.TimeSel.select_times_ranges",
    "Verif.TimeSel.select_time_range",
    "Verif.TimeSel.onArc_iff",
    "Verif.TimeSel.select_lst_range",
    "Verif.TimeSel.select_one_selector",
    "Verif.TimeSel.overlap_spec",
    "Verif.TimeSel.overlap_interior",
    "Verif.TimeSel.select_time_range_ranges",
    "Verif.TimeSel.select_lsts_ranges_partial",
    "Verif.TimeSel.select_lsts_ranges_counterexample",
    "Verif.TimeSel.select_lst_range_ranges_counterexample"
   ],
   "note": "Everything proved for time arrays; for objects with time ranges the LST selectors are refuted by witnesses."
  },
  {
   "property": "C37",
   "status": "partial",
   "theorems": [
    "Verif.Resample.upsample_cuts_partial",
    "Verif.Resample.upsample_conserves_partial",
    "Verif.Resample.upsample_short",
    "Verif.Resample.upsample_loses",
    "Verif.Resample.upsample_refuses",
    "Verif.Resample.upsample_counterexample"
   ],
   "note": "Proved if no integration is over the limit but within the 1 ms tolerance of it. Such integrations are lost whenever another one is cut (upsample_loses, witness upsample_counterexample)."
  },
  {
   "property": "C38",
   "status": "partial",
   "theorems": [
    "Verif.Resample.downsample_rows",
    "Verif.Resample.downsample_nothing",
    "Verif.Resample.downsample_outcome",
    "Verif.Resample.downsample_conserves",
    "Verif.Resample.fill_windows",
    "Verif.Resample.windows_unique",
    "Verif.Resample.countable_std",
    "Verif.Resample.downsample_counterexample"
   ],
   "note": "Complete for min_int_time. For n_times_to_avg with keep_ragged the number of rows is foreseen right if (number of times)*1e-5 + n*1e-8 < 1; beyond that AssertionError is possible (witness: 100173 times, n = 317)."
  },
  {
   "property": "C39",
   "status": "partial",
   "theorems": [
    "Verif.FreqAvg.frequencyAverage_windows_partial",
    "Verif.FreqAvg.frequencyAverage_one",
    "Verif.FreqAvg.frequencyAverage_merged",
    "Verif.FreqAvg.frequencyAverage_error",
    "Verif.FreqAvg.frequencyAverage_fails",
    "Verif.FreqAvg.width_conserved",
    "Verif.FreqAvg.groups_spec",
    "Verif.FreqAvg.frequencyAverage_error_counterexample",
    "Verif.FreqAvg.frequencyAverage_data_counterexample"
   ],
   "note": "Groups, frequencies, widths and flags: always. Data and nsamples: everywhere with one window (or respect_spws=False), otherwise in the first window and wherever not all of a group is flagged. In later windows fully flagged channels raise IndexError (exact condition proved) or come out as zero (witnesses)."
  },
  {
   "property": "C40",
   "status": "proved",
   "theorems": [
    "Verif.History.history_addition",
    "Verif.History.words_exist",
    "Verif.History.history_complete"
   ],
   "note": "Words are the maximal pieces between single blanks, as str.split(\" \") makes them; line breaks are not word separators for the word test, exactly as in the code."
  },
  {
   "property": "C41",
   "status": "proved",
   "theorems": [
    "Verif.AntPair.get_antpairs_exact",
    "Verif.AntPair.get_ants_exact"
   ],
   "note": ""
  },
  {
   "property": "C42",
   "status": "partial",
   "theorems": [
    "Verif.GetData.get_data_pair_pol",
    "Verif.GetData.get_data_pair_pol_refuses",
    "Verif.GetData.get_data_pair_pol_mixed",
    "Verif.GetData.get_data_auto_pol",
    "Verif.GetData.get_data_pol",
    "Verif.GetData.get_data_pair_partial",
    "Verif.GetData.get_data_pair_open",
    "Verif.GetData.get_data_baseline",
    "Verif.GetData.get_data_reversed",
    "Verif.GetData.get_data_pair_counterexample"
   ],
   "note": "Exact for a pair with a polarization, for a polarization and for a baseline number. The claim is false for some pair keys: with polarizations ordered like [xy, yx] the conjugated rows select no polarization at all (counterexample), and reversed rows are dropped without a warning when the polarizations are not closed under conjugation."
  },
  {
   "property": "C43",
   "status": "partial",
   "theorems": [
    "Verif.PhaseCat.generateId_smallest_partial",
    "Verif.PhaseCat.generateId_smallest_counterexample"
   ],
   "note": "Holds when the IDs in use are the numbers below their count. In general set.pop may return a larger one (counterexample with the set layout of CPython)."
  },
  {
   "property": "C44",
   "status": "proved",
   "theorems": [
    "Verif.PhaseCat.entry_wellformed",
    "Verif.PhaseCat.wellformed_accepted"
   ],
   "note": ""
  },
  {
   "property": "C45",
   "status": "partial",
   "theorems": [
    "Verif.PhaseCat.split_moves_partial",
    "Verif.PhaseCat.split_default_name_counterexample"
   ],
   "note": "Holds for a new name that is not in use. With the default name the duplicate search finds the old entry and nothing is split, without an error (counterexample)."
  },
  {
   "property": "C46",
   "status": "proved",
   "theorems": [
    "Verif.PhaseCat.merge_exact",
    "Verif.PhaseCat.merge_matches"
   ],
   "note": ""
  },
  {
   "property": "C47",
   "status": "proved",
   "theorems": [
    "Verif.FreqSort.reorder_freqs_records",
    "Verif.FreqSort.firstOrder_spec",
    "Verif.FreqSort.reorder_freqs_spw_array_counterexample"
   ],
   "note": "When the channels already are in the requested order nothing is touched, so the window list itself may stay unsorted (counterexample theorem). The final check() is not modelled."
  },
  {
   "property": "C48",
   "status": "proved",
   "theorems": [
    "Verif.Flag.to_antenna_to_waterfall",
    "Verif.Flag.to_baseline_to_waterfall"
   ],
   "note": "Waterfalls with increasing times."
  },
  {
   "property": "C49",
   "status": "proved",
   "theorems": [
    "Verif.Flag.andRowsCols_iff",
    "Verif.Flag.to_flag_exact",
    "Verif.Flag.to_metric_to_flag",
    "Verif.Flag.to_metric_to_flag_outside",
    "Verif.Flag.convert_wgts_bl",
    "Verif.Flag.convert_wgts_wf"
   ],
   "note": "Quotients are exact. The antenna type of convert_wgts, which is the waterfall case for each antenna, is not modelled."
  },
  {
   "property": "C50",
   "status": "proved",
   "theorems": [
    "Verif.Flag.flags2waterfall_pol",
    "Verif.Flag.flags2waterfall_nopol"
   ],
   "note": "For UVData; the UVCal branch is not modelled. Exact arithmetic."
  },
  {
   "property": "C51",
   "status": "partial",
   "theorems": [
    "Verif.Flag.or_flags_exact",
    "Verif.Flag.or_flags_algebra",
    "Verif.Flag.or_flags_labels_counterexample"
   ],
   "note": "The label part is false: __or__ compares no labels."
  },
  {
   "property": "C52",
   "status": "proved",
   "theorems": [
    "Verif.Flag.add_wf_cells"
   ],
   "note": "Waterfalls in flag mode; label comparison without tolerance."
  },
  {
   "property": "C53",
   "status": "proved",
   "theorems": [
    "Verif.Redund.orient_exactly_one",
    "Verif.Redund.orient_opposite",
    "Verif.Redund.orient_near_counterexample"
   ],
   "note": "The counterexample records that vectors closer than the tolerance can be oriented oppositely. Exact arithmetic (np.isclose with b = 0)."
  },
  {
   "property": "C54",
   "status": "proved",
   "theorems": [
    "Verif.Redund.antenna_redundancies"
   ],
   "note": "Grid algorithm (the default). Exact arithmetic."
  },
  {
   "property": "C55",
   "status": "partial",
   "theorems": [
    "Verif.Redund.inflate_length",
    "Verif.Redund.inflate_rows",
    "Verif.Redund.inflate_block",
    "Verif.Redund.inflate_missing",
    "Verif.Redund.inflate_keeps_partial",
    "Verif.Redund.inflate_keeps_counterexample"
   ],
   "note": "The last part needs that no group has two baselines in the data, else the data of all but the first are lost."
  },
  {
   "property": "C56",
   "status": "partial",
   "theorems": [
    "Verif.Add.add_rows_sorted_partial",
    "Verif.Add.add_rows_sorted_counterexample"
   ],
   "note": "Proved if shared rows come in the same order in both objects; false otherwise (counterexample)."
  },
  {
   "property": "C57",
   "status": "partial",
   "theorems": [
    "Verif.Concat.concat_keeps_this",
    "Verif.Concat.concat_two_partial",
    "Verif.Concat.concat_phase_counterexample"
   ],
   "note": "First object: any number of objects. All rows: one other object. False for three objects (counterexample)."
  },
  {
   "property": "C58",
   "status": "proved",
   "theorems": [
    "Verif.Resample.up_down",
    "Verif.Resample.average_cut",
    "Verif.Resample.averages_interval"
   ],
   "note": ""
  },
  {
   "property": "C59",
   "status": "proved",
   "theorems": [
    "Verif.FlexPol.remove_spreads"
   ],
   "note": "Covers also the early return for one window or one polarization. Windows without channels allowed."
  },
  {
   "property": "C60",
   "status": "proved",
   "theorems": [
    "Verif.FlexPol.makeFlex_keeps",
    "Verif.FlexPol.makeFlex_refuses",
    "Verif.FlexPol.makeFlex_roundtrip",
    "Verif.FlexPol.windowPol_spec"
   ],
   "note": ""
  },
  {
   "property": "C61",
   "status": "proved",
   "theorems": [
    "Verif.FlexPol.remove_combines",
    "Verif.FlexPol.remove_conflict",
    "Verif.FlexPol.remove_unmatched"
   ],
   "note": "Arithmetic is exact. eq_coeffs is not modelled."
  },
  {
   "property": "C62",
   "status": "partial",
   "theorems": [
    "Verif.Calib.calibrate_cell_partial",
    "Verif.Calib.channel_order_counterexample",
    "Verif.Calib.time_order_counterexample"
   ],
   "note": "Gain-type, not wide-band calibrations; absolute tolerances for times and frequencies (the defaults). The claim fails if the channels of the data and the calibration are in different orders, or if the rows of a baseline are not in the order of time and the calibration has several times: both are checked as sets but applied by position. Proved for increasing frequency axes spaced by more than two tolerances and, with several solution times and no time ranges, rows of each antenna pair at all times in order. Assumed: antenna names and numbers, polarizations and Jones terms without repetition, baseline numbers consistent with the antennas. `Calibrated` in Spec.lean is the claim. delay-type solutions and d_term_cal are not modelled."
  },
  {
   "property": "C63",
   "status": "proved",
   "theorems": [
    "Verif.Calib.undo_restores"
   ],
   "note": "Exact arithmetic. Needs gains different from zero wherever they are applied (automatic with prop_flags if 0 counts as close to zero). No assumption on the order of times or frequencies."
  },
  {
   "property": "C64",
   "status": "proved",
   "theorems": [
    "Verif.Calib.calibrate_flags",
    "Verif.Calib.calibrate_missing",
    "Verif.Calib.calibrate_labels"
   ],
   "note": "Gain-type calibrations. Which further flags prop_flags sets is part of C62."
  },
  {
   "property": "C65",
   "status": "partial",
   "theorems": [
    "Verif.Calib.exception_unchanged_partial",
    "Verif.Calib.half_calibrated_counterexample"
   ],
   "note": "The claim fails: the witness has a baseline observed at one of two times. Under the assumptions of C62 all exceptions come before the first change."
  },
  {
   "property": "C66",
   "status": "proved",
   "theorems": [
    "Verif.Coord.to_enu_and_back",
    "Verif.Coord.from_enu_and_back",
    "Verif.Coord.enu_keeps_distance",
    "Verif.Coord.up_is_up",
    "Verif.Coord.east_is_east",
    "Verif.Coord.north_is_north",
    "Verif.Coord.rot_and_back",
    "Verif.Coord.rot_longitude",
    "Verif.Coord.earth_range",
    "Verif.Coord.earth_range_refused",
    "Verif.Coord.moon_range"
   ],
   "note": "Real arithmetic, no rounding. Lunar ellipsoids are parameters with 0 < b <= a."
  },
  {
   "property": "C67",
   "status": "partial",
   "theorems": [
    "Verif.Coord.xyz_geodetic",
    "Verif.Coord.surface_exact",
    "Verif.Coord.sphere_exact",
    "Verif.Coord.earth_roundtrip",
    "Verif.Coord.earth_arrays",
    "Verif.Coord.xy_restored",
    "Verif.Coord.pole_counterexample",
    "Verif.Coord.latitude_inexact_counterexample"
   ],
   "note": "Exact on the surface and on spheres; for the Earth error bounds for |altitude| <= 40 km away from the exact poles. The exact statement is false at the poles and for points off the surface (witnesses)."
  },
  {
   "property": "C68",
   "status": "proved",
   "theorems": [
    "Verif.Phasing.rotateOne_spec",
    "Verif.Phasing.rotateTwo_spec",
    "Verif.Phasing.twoMatrix_mulVec"
   ],
   "note": "Real arithmetic. Shapes: one vector per row or one row (all uses in the code)."
  },
  {
   "property": "C69",
   "status": "partial",
   "theorems": [
    "Verif.Phasing.uvw_from_antennas_partial",
    "Verif.Phasing.uvw_enu",
    "Verif.Phasing.enu_is_difference",
    "Verif.Phasing.proj_length",
    "Verif.Phasing.proj_swap",
    "Verif.Phasing.proj_w",
    "Verif.Phasing.position_angle_counterexample"
   ],
   "note": "The statement for source positions needs that consecutive rows with equal hour angle and declination have equal position angles; without it it is false (witness). The statement for local coordinates is proved without condition."
  },
  {
   "property": "C70",
   "status": "partial",
   "theorems": [
    "Verif.Phasing.uvw_moved_partial",
    "Verif.Phasing.there_and_back",
    "Verif.Phasing.by_way_of",
    "Verif.Phasing.length_kept",
    "Verif.Phasing.both_ways_agree",
    "Verif.Phasing.move_succeeds",
    "Verif.Phasing.from_enu_counterexample",
    "Verif.Phasing.no_position_angle_counterexample"
   ],
   "note": "Proved for coherent arguments (old or new declination and position angle, if given with from_enu or to_enu, are those of the zenith); false otherwise (witnesses)."
  },
  {
   "property": "C71",
   "status": "partial",
   "theorems": [
    "Verif.Phase.phase_keeps_signal_partial",
    "Verif.Phase.steps_keep",
    "Verif.Phase.steps_same_path",
    "Verif.Phase.steps_agree",
    "Verif.Phase.steps_magnitude",
    "Verif.Phase.unproject_keeps_signal_partial",
    "Verif.Phase.setUvws_keeps_signal_partial",
    "Verif.Phase.updateAnts_keeps_signal_partial",
    "Verif.Phase.phase_kind_turned",
    "Verif.Phase.phase_kind_counterexample",
    "Verif.Phase.phase_clash_counterexample"
   ],
   "note": "The statement is proved for all histories of calls within these conditions: a source looked up by name is of the kind that cat_type says; a call with a selection does not reuse the name of another source; rows that unproject_phase leaves out are unprojected already; coordinates are set from antenna positions only while rows are all of one kind. Each condition is needed: see the witnesses here and under C73 and C74. Exact arithmetic."
  },
  {
   "property": "C72",
   "status": "partial",
   "theorems": [
    "Verif.Phase.phase_selected_rows_partial",
    "Verif.Phase.phase_from_antennas_partial",
    "Verif.Phase.phase_moves_baseline",
    "Verif.Phase.phase_other_rows",
    "Verif.Phase.phase_other_sources_partial",
    "Verif.Phase.phase_good",
    "Verif.Phase.phase_succeeds",
    "Verif.Phase.phase_selection_counterexample",
    "Verif.Phase.phase_clash_counterexample"
   ],
   "note": "Missing: positions of ephemeris sources; the coordinates from antenna positions need that rows seen at the same hour angle and declination have the same position angle (see C69); entries of rows not selected are kept only if the name is new or is that of the very source (witness otherwise)."
  },
  {
   "property": "C73",
   "status": "partial",
   "theorems": [
    "Verif.Phase.unproject_kind",
    "Verif.Phase.unproject_sources",
    "Verif.Phase.unproject_overhead",
    "Verif.Phase.unproject_good",
    "Verif.Phase.unproject_row_signal",
    "Verif.Phase.unproject_keeps_signal_partial",
    "Verif.Phase.unproject_from_antennas",
    "Verif.Phase.unproject_moves_baseline",
    "Verif.Phase.phase_unproject",
    "Verif.Phase.unproject_succeeds",
    "Verif.Phase.unproject_mask_counterexample"
   ],
   "note": "All parts about selected rows are proved. Rows that are not selected keep entry and position, but their coordinates are overwritten (witness)."
  },
  {
   "property": "C74",
   "status": "partial",
   "theorems": [
    "Verif.Phase.setUvws_baselines_partial",
    "Verif.Phase.setUvws_good",
    "Verif.Phase.setUvws_keeps_signal_partial",
    "Verif.Phase.setUvws_mixed_counterexample",
    "Verif.Phase.setUvws_mixed_witness_counterexample",
    "Verif.Phase.updateAnts_positions",
    "Verif.Phase.updateAnts_baselines_partial",
    "Verif.Phase.updateAnts_keeps_signal_partial",
    "Verif.Phase.updateAnts_delta_counterexample",
    "Verif.Phase.updateAnts_witness_counterexample",
    "Verif.Phase.setUvws_succeeds_partial",
    "Verif.Phase.updateAnts_succeeds_partial"
   ],
   "note": "Coordinates need the condition on position angles of C69. The visibilities follow only without delta_antpos and when rows are all of one kind (witnesses otherwise)."
  },
  {
   "property": "C75",
   "status": "partial",
   "theorems": [
    "Verif.Sky.app_row_partial",
    "Verif.Sky.app_succeeds",
    "Verif.Sky.driftscan_fixed",
    "Verif.Sky.driftscan_zenith",
    "Verif.Sky.phase_site_partial",
    "Verif.Sky.app_lst_counterexample"
   ],
   "note": "Needs rows with the same time to have the same LST; false otherwise (witness)."
  },
  {
   "property": "C76",
   "status": "partial",
   "theorems": [
    "Verif.Sky.frame_angle_partial",
    "Verif.Sky.frame_rows",
    "Verif.Sky.frame_angle_aligned",
    "Verif.Sky.site_angle",
    "Verif.Sky.frame_south_counterexample",
    "Verif.Sky.frame_north_counterexample",
    "Verif.Sky.frame_rectangle_counterexample"
   ],
   "note": "Proved away from the poles if rows with the same time have the same position; false near both poles and for other combinations of positions (witnesses)."
  },
  {
   "property": "C77",
   "status": "partial",
   "theorems": [
    "Verif.Sky.interp_exact",
    "Verif.Sky.interp_order",
    "Verif.Sky.interp_between",
    "Verif.Sky.interp_linear",
    "Verif.Sky.interp_total",
    "Verif.Sky.interp_wrap_counterexample"
   ],
   "note": "The part about full turns is false (witness). Cubic splines, used with more than three points, are an arbitrary function."
  },
  {
   "property": "C78",
   "status": "proved",
   "theorems": [
    "Verif.Sky.polar2_dir",
    "Verif.Sky.cart3_polar2",
    "Verif.Sky.polar2_cart3",
    "Verif.Sky.cart3_range",
    "Verif.Sky.undo_old",
    "Verif.Sky.oldUvw_components"
   ],
   "note": ""
  },
  {
   "property": "C79",
   "status": "partial",
   "theorems": [
    "Verif.Eq.param_refl_partial",
    "Verif.Eq.object_refl_partial",
    "Verif.Eq.empty_refl_counterexample",
    "Verif.Eq.dict_nan_counterexample",
    "Verif.Eq.dict_strings_counterexample"
   ],
   "note": "False for empty arrays and lists, dictionaries holding NaN, and dictionaries holding both an array and a list of strings (witnesses); proved for all other values and for objects of any nesting."
  },
  {
   "property": "C80",
   "status": "partial",
   "theorems": [
    "Verif.Eq.array_eq_iff",
    "Verif.Eq.number_eq_iff",
    "Verif.Eq.string_eq",
    "Verif.Eq.dict_agree_partial",
    "Verif.Eq.object_eq_iff",
    "Verif.Eq.object_arrays",
    "Verif.Eq.allowed_irrelevant",
    "Verif.Eq.allowed_again",
    "Verif.Eq.list_shape_counterexample",
    "Verif.Eq.strings_word_counterexample",
    "Verif.Eq.dict_case_counterexample",
    "Verif.Eq.dict_tols_counterexample",
    "Verif.Eq.object_allowed_counterexample",
    "Verif.Eq.class_differs",
    "Verif.Eq.unset_no_raise",
    "Verif.Eq.unset_equal",
    "Verif.Eq.list_eq_iff",
    "Verif.Eq.other_eq_iff",
    "Verif.Eq.dict_raises",
    "Verif.Eq.dict_array"
   ],
   "note": "Arrays, numbers, strings and objects are proved as stated; lists are broadcast and keys of dictionaries that differ in case hide each other (witnesses). Parameters allowed to differ do not matter unless comparing them raises (witness)."
  },
  {
   "property": "C81",
   "status": "partial",
   "theorems": [
    "Verif.Eq.param_symm_partial",
    "Verif.Eq.object_symm_partial",
    "Verif.Eq.chain_drift",
    "Verif.Eq.array_symm_counterexample",
    "Verif.Eq.array_trans_counterexample",
    "Verif.Eq.string_trans_counterexample",
    "Verif.Eq.strings_word_counterexample",
    "Verif.Eq.dict_nested_counterexample",
    "Verif.Eq.object_symm_counterexample"
   ],
   "note": "Symmetry fails with the default relative tolerance, for some pairs of types and for subclasses (witnesses); proved for a relative tolerance of zero and values of the same sort. The bound on the drift is proved for chains of any length."
  },
  {
   "property": "C82",
   "status": "partial",
   "theorems": [
    "Verif.Eq.check_iff",
    "Verif.Eq.expectedShape_iff",
    "Verif.Eq.check_range_counterexample"
   ],
   "note": "The equivalence is proved with ranges understood as ranges of the mean magnitude; that single values may lie outside is shown by a witness."
  },
  {
   "property": "C83",
   "status": "proved",
   "theorems": [
    "Verif.CalSort.reorder_keeps_solutions"
   ],
   "note": ""
  },
  {
   "property": "C84",
   "status": "proved",
   "theorems": [
    "Verif.CalSort.reorder_antennas_order",
    "Verif.CalSort.reorder_jones_order",
    "Verif.CalSort.reorder_times_order",
    "Verif.CalSort.reorder_windows_order",
    "Verif.CalSort.reorder_channels_order",
    "Verif.CalSort.reorder_antennas_ok_iff",
    "Verif.CalSort.reorder_jones_ok_iff",
    "Verif.CalSort.reorder_times_ok_iff"
   ],
   "note": ""
  },
  {
   "property": "C85",
   "status": "proved",
   "theorems": [
    "Verif.CalSort.convert_to_gain_values",
    "Verif.CalSort.convert_to_gain_refused",
    "Verif.CalSort.phaseOf_facts",
    "Verif.CalSort.phaseOf_quarter"
   ],
   "note": ""
  },
  {
   "property": "C86",
   "status": "partial",
   "theorems": [
    "Verif.FlexJones.convert_keeps_partial",
    "Verif.FlexJones.convert_refused",
    "Verif.FlexJones.convert_total_counterexample"
   ],
   "note": "False if total_quality_array is set (witness); proved for all other objects."
  },
  {
   "property": "C87",
   "status": "partial",
   "theorems": [
    "Verif.FlexJones.remove_keeps_partial",
    "Verif.FlexJones.remove_accepts",
    "Verif.FlexJones.flex_round_trip_partial",
    "Verif.FlexJones.remove_total_counterexample",
    "Verif.FlexJones.round_trip_counterexample"
   ],
   "note": "False if total_quality_array is set and, for the way back, if windows have different numbers of channels (witnesses); proved otherwise, with exact comparison of frequencies."
  },
  {
   "property": "C88",
   "status": "partial",
   "theorems": [
    "Verif.FlexJones.make_keeps_partial",
    "Verif.FlexJones.make_refuses",
    "Verif.FlexJones.make_total_counterexample"
   ],
   "note": "Missing: objects with total_quality_array (false: every such object with several components that would be converted without it ends with an exception, changed)."
  },
  {
   "property": "C89",
   "status": "partial",
   "theorems": [
    "Verif.CalAdd.range_overlap_refused",
    "Verif.CalAdd.range_overlap_false",
    "Verif.CalAdd.range_overlap_iff",
    "Verif.CalAdd.range_overlap_counterexample"
   ],
   "note": "Exact for ranges that are not empty."
  },
  {
   "property": "C90",
   "status": "partial",
   "theorems": [
    "Verif.CalAdd.cal_add_label_sets",
    "Verif.CalAdd.cal_add_keeps_this",
    "Verif.CalAdd.cal_add_keeps_other_partial",
    "Verif.CalAdd.cal_add_keeps_other_counterexample",
    "Verif.CalAdd.cal_add_pads",
    "Verif.CalAdd.cal_add_no_quality",
    "Verif.CalAdd.cal_add_rows",
    "Verif.CalAdd.cal_add_widths",
    "Verif.CalAdd.cal_add_sorted",
    "Verif.CalAdd.cal_add_total_kept",
    "Verif.CalAdd.cal_add_total_partial"
   ],
   "note": "For the second object only if along each axis the labels both have come before those only it has."
  },
  {
   "property": "C91",
   "status": "proved",
   "theorems": [
    "Verif.CalAdd.cal_add_outcome",
    "Verif.CalAdd.cal_add_shared_range_refused",
    "Verif.CalAdd.cal_add_shared_range_witness",
    "Verif.CalAdd.cal_add_total_witness"
   ],
   "note": ""
  },
  {
   "property": "C92",
   "status": "partial",
   "theorems": [
    "Verif.CalAdd.cal_add_wide_jones_partial",
    "Verif.CalAdd.cal_add_jones_partial",
    "Verif.CalAdd.cal_add_wide_jones_counterexample",
    "Verif.CalAdd.cal_add_jones_counterexample",
    "Verif.CalAdd.cal_add_jones_relabelled_counterexample"
   ],
   "note": "If nothing has to be sorted."
  },
  {
   "property": "C93",
   "status": "partial",
   "theorems": [
    "Verif.Beam.select_keeps_partial",
    "Verif.Beam.select_pols_swapped",
    "Verif.Beam.select_pols_counterexample"
   ],
   "note": "Proved for polarizations requested in the order of the object; every other request exchanges polarizations."
  },
  {
   "property": "C94",
   "status": "partial",
   "theorems": [
    "Verif.Beam.select_accepted_iff",
    "Verif.Beam.select_refused_counterexample",
    "Verif.Beam.select_basis_counterexample"
   ],
   "note": "The condition is proved; that a refused selection in place changes nothing is false."
  },
  {
   "property": "C95",
   "status": "partial",
   "theorems": [
    "Verif.Beam.add_labels",
    "Verif.Beam.add_keeps_partial",
    "Verif.Beam.add_basis_partial",
    "Verif.Beam.add_coupling_partial",
    "Verif.Beam.add_inOrder",
    "Verif.Beam.add_freqs_swapped",
    "Verif.Beam.add_band_lost",
    "Verif.Beam.add_freqs_counterexample",
    "Verif.Beam.add_band_counterexample"
   ],
   "note": "Proved if the labels of the second object are in the order of the sum; false otherwise and for shared passbands and basis vectors."
  },
  {
   "property": "C96",
   "status": "partial",
   "theorems": [
    "Verif.Beam.add_accepted_iff",
    "Verif.Beam.add_refused_drops",
    "Verif.Beam.add_refused_counterexample",
    "Verif.Beam.add_basis_counterexample"
   ],
   "note": "The condition is proved; that a refused addition changes nothing is false."
  },
  {
   "property": "C97",
   "status": "proved",
   "theorems": [
    "Verif.Beam.power_is_inner_product",
    "Verif.Beam.power_kept_axes",
    "Verif.Beam.power_auto_nonneg",
    "Verif.Beam.power_conj",
    "Verif.Beam.power_cauchy",
    "Verif.Beam.power_basis_free",
    "Verif.Beam.power_sum_of_axes",
    "Verif.Beam.power_scaled"
   ],
   "note": "In exact arithmetic."
  },
  {
   "property": "C98",
   "status": "partial",
   "theorems": [
    "Verif.Beam.power_accepted_iff",
    "Verif.Beam.power_refused_unchanged",
    "Verif.Beam.power_three_vectors",
    "Verif.Beam.pstokes_accepted_iff",
    "Verif.Beam.pstokes_one_feed",
    "Verif.Beam.power_peak_counterexample"
   ],
   "note": "The conditions are proved; that a refused conversion changes nothing and that the normalization stays right are false."
  },
  {
   "property": "C99",
   "status": "proved",
   "theorems": [
    "Verif.Beam.peak_normalize_keeps",
    "Verif.Beam.peak_normalize_twice",
    "Verif.Beam.peak_normalize_refused_iff",
    "Verif.Beam.peak_normalize_zero_counterexample"
   ],
   "note": "For channels that are not all zero."
  },
  {
   "property": "C100",
   "status": "partial",
   "theorems": [
    "Verif.Beam.pstokes_values",
    "Verif.Beam.pstokes_bounds",
    "Verif.Beam.pstokes_intensity_partial",
    "Verif.Beam.pstokes_sign_counterexample",
    "Verif.Beam.pstokes_basis_counterexample"
   ],
   "note": "Closed forms and bounds proved; signs are lost and basis vectors ignored."
  },
  {
   "property": "C101",
   "status": "partial",
   "theorems": [
    "Verif.Interp.freq_accepted_iff",
    "Verif.Interp.freq_values",
    "Verif.Interp.freq_own",
    "Verif.Interp.band_values",
    "Verif.Interp.band_first_only",
    "Verif.Interp.band_counterexample",
    "Verif.Interp.nearest_depends_counterexample"
   ],
   "note": "Values at channels, the closest channel and the accepted requests are proved. Missing: without freq_array only the bandpass of the first channel is returned (band_first_only, counterexample)."
  },
  {
   "property": "C102",
   "status": "partial",
   "theorems": [
    "Verif.Interp.sky_at_grid",
    "Verif.Interp.sky_own",
    "Verif.Interp.polInds_spec",
    "Verif.Interp.grid_point",
    "Verif.Interp.distance_two_ways",
    "Verif.Interp.outside_iff",
    "Verif.Interp.basis_accepted_iff",
    "Verif.Interp.basis_kept",
    "Verif.Interp.basis_counterexample",
    "Verif.Interp.one_coordinate_counterexample"
   ],
   "note": "Values at points of the grid and the domain check are proved. Missing: basis vectors that are not those of the coordinates and a single coordinate are not refused (counterexamples)."
  },
  {
   "property": "C103",
   "status": "partial",
   "theorems": [
    "Verif.Interp.wrap_periodic",
    "Verif.Interp.wrap_both_ends",
    "Verif.Interp.phiUse_get",
    "Verif.Interp.srcUse_get"
   ],
   "note": "Proved for azimuths that stop one step before the turn. Missing: with both ends the continuation is off by one step (wrap_both_ends)."
  },
  {
   "property": "C104",
   "status": "partial",
   "theorems": [
    "Verif.Interp.reuse_same_partial",
    "Verif.Interp.reuse_twice",
    "Verif.Interp.jobs_consistent",
    "Verif.Interp.reuse_stale",
    "Verif.Interp.reuse_kind_counterexample",
    "Verif.Interp.reuse_opts_counterexample",
    "Verif.Interp.reuse_data_counterexample",
    "Verif.Interp.reuse_order_counterexample"
   ],
   "note": "Proved for saved functions that the request would compute. Missing: others are used as well (reuse_stale, counterexamples)."
  },
  {
   "property": "C105",
   "status": "partial",
   "theorems": [
    "Verif.Interp.new_labels",
    "Verif.Interp.new_value",
    "Verif.Interp.new_object_partial",
    "Verif.Interp.new_freq_only",
    "Verif.Interp.new_pols_swapped",
    "Verif.Interp.new_object_counterexample"
   ],
   "note": "Proved without a choice of polarizations. Missing: with polarizations in another order values are exchanged and labels are not (new_pols_swapped, counterexample)."
  },
  {
   "property": "C106",
   "status": "partial",
   "theorems": [
    "Verif.Interp.order_two_ways",
    "Verif.Interp.healpix_value_partial",
    "Verif.Interp.healpix_value_reversed",
    "Verif.Interp.healpix_between",
    "Verif.Interp.area_accepted_iff",
    "Verif.Interp.area_value",
    "Verif.Interp.area_bounds",
    "Verif.Interp.healpix_order_counterexample",
    "Verif.Interp.healpix_twice_counterexample",
    "Verif.Interp.sq_area_complex_counterexample"
   ],
   "note": "Proved for maps in order. Missing: maps in reverse order are accepted and complex values squared without the modulus (counterexamples)."
  },
  {
   "property": "C107",
   "status": "proved",
   "theorems": [
    "Verif.Fits.values_kept",
    "Verif.Fits.pols_kept",
    "Verif.Fits.flags_inverted",
    "Verif.Fits.negative_samples_counterexample"
   ],
   "note": "Negative numbers of samples are excluded by the claim; what happens with them is proved too."
  },
  {
   "property": "C108",
   "status": "partial",
   "theorems": [
    "Verif.Fits.freqs_kept_partial",
    "Verif.Fits.channel_kept",
    "Verif.Fits.freqs_read",
    "Verif.Fits.step_near",
    "Verif.Fits.windows_counterexample",
    "Verif.Fits.widths_counterexample",
    "Verif.Fits.window_numbers_counterexample"
   ],
   "note": "False if the list of windows is in another order than the channels, for widths of a descending window, and for window numbers."
  },
  {
   "property": "C109",
   "status": "partial",
   "theorems": [
    "Verif.Fits.partRead_partial",
    "Verif.Fits.partRead_ignored",
    "Verif.Fits.partRead_refused",
    "Verif.Fits.part_counterexample"
   ],
   "note": "False for choices of channels from files with several windows."
  },
  {
   "property": "C110",
   "status": "partial",
   "theorems": [
    "Verif.Fits.times_kept",
    "Verif.Fits.antennas_kept",
    "Verif.Fits.sources_kept_partial",
    "Verif.Fits.sources_refused",
    "Verif.Fits.fileFrame_spec",
    "Verif.Fits.f32_exact",
    "Verif.Fits.antennas_counterexample",
    "Verif.Fits.names_counterexample",
    "Verif.Fits.sources_counterexample",
    "Verif.Fits.motion_counterexample"
   ],
   "note": "False for large numbers in single precision, long names, and entries of the catalog that differ in what is not written."
  },
  {
   "property": "C111",
   "status": "partial",
   "theorems": [
    "Verif.Fits.keyword_kept_partial",
    "Verif.Fits.keyword_from",
    "Verif.Fits.keyword_lost",
    "Verif.Fits.keyword_replaces",
    "Verif.Fits.keyword_collide",
    "Verif.Fits.keywords_counterexample"
   ],
   "note": "False for names that contain a name of the format, that are one, or that are cut to the same."
  },
  {
   "property": "C112",
   "status": "proved",
   "theorems": [
    "Verif.Fits.write_iff"
   ],
   "note": ""
  },
  {
   "property": "C113",
   "status": "partial",
   "theorems": [
    "Verif.CalFits.gains_kept",
    "Verif.CalFits.delays_kept",
    "Verif.CalFits.labels_kept_partial",
    "Verif.CalFits.flex_counterexample",
    "Verif.CalFits.names_counterexample"
   ],
   "note": "False for window numbers, flexible Jones components and long antenna names."
  },
  {
   "property": "C114",
   "status": "partial",
   "theorems": [
    "Verif.CalFits.freqs_kept_partial",
    "Verif.CalFits.freqs_mirrored",
    "Verif.CalFits.times_kept_partial",
    "Verif.CalFits.range_kept",
    "Verif.CalFits.wide_gains",
    "Verif.CalFits.falling_counterexample",
    "Verif.CalFits.wide_counterexample",
    "Verif.CalFits.both_counterexample",
    "Verif.CalFits.drift_counterexample"
   ],
   "note": "False for falling frequencies, wide-band gains and times close to but not at the integration time."
  },
  {
   "property": "C115",
   "status": "proved",
   "theorems": [
    "Verif.CalFits.write_iff"
   ],
   "note": ""
  },
  {
   "property": "C116",
   "status": "partial",
   "theorems": [
    "Verif.CalFits.keyword_kept_partial",
    "Verif.CalFits.keyword_from_gains",
    "Verif.CalFits.keyword_from_delays",
    "Verif.CalFits.format_kept_partial",
    "Verif.CalFits.delays_width_counterexample",
    "Verif.CalFits.observer_counterexample"
   ],
   "note": "False for delays and for names that are cut to one of the format."
  },
  {
   "property": "C117",
   "status": "partial",
   "theorems": [
    "Verif.BeamFits.beam_kept_partial",
    "Verif.BeamFits.real_power_counterexample"
   ],
   "note": "False for real power beams with more than one polarization: the file is written and cannot be read."
  },
  {
   "property": "C118",
   "status": "partial",
   "theorems": [
    "Verif.BeamFits.ranges_partial",
    "Verif.BeamFits.slice_rising",
    "Verif.BeamFits.falling_counterexample",
    "Verif.BeamFits.empty_counterexample"
   ],
   "note": "False for falling axes (the range is ignored) and for ranges between two values (empty beam)."
  },
  {
   "property": "C119",
   "status": "proved",
   "theorems": [
    "Verif.SetData.set_data_exact",
    "Verif.SetData.set_pol_iff"
   ],
   "note": ""
  },
  {
   "property": "C120",
   "status": "partial",
   "theorems": [
    "Verif.Cache.read_fresh_partial",
    "Verif.Cache.read_then_assign",
    "Verif.Cache.read_stale",
    "Verif.Cache.read_counterexample"
   ],
   "note": "False after earlier queries: the caches are not emptied by reading."
  },
  {
   "property": "C121",
   "status": "partial",
   "theorems": [
    "Verif.NewData.outer_rows",
    "Verif.NewData.outer_labels_partial",
    "Verif.NewData.faster_lst_iff",
    "Verif.NewData.plain_rows",
    "Verif.NewData.faster_counterexample"
   ],
   "note": "False with times as the faster axis and times not in order."
  },
  {
   "property": "C122",
   "status": "partial",
   "theorems": [
    "Verif.NewData.left_out_iff",
    "Verif.NewData.outer_inferred_partial",
    "Verif.NewData.widths",
    "Verif.NewData.widths_accepted",
    "Verif.NewData.falling_negative",
    "Verif.NewData.unsorted_gaps_counterexample"
   ],
   "note": "False for times not in order and falling frequencies."
  },
  {
   "property": "C123",
   "status": "partial",
   "theorems": [
    "Verif.NewData.order_reported",
    "Verif.NewData.order_right_partial",
    "Verif.NewData.order_counterexample"
   ],
   "note": "False for times or antennas not in order."
  },
  {
   "property": "C124",
   "status": "partial",
   "theorems": [
    "Verif.NewData.names_kept_partial",
    "Verif.NewData.names_counterexample"
   ],
   "note": "False if the argument differs from the orientation of the telescope."
  },
  {
   "property": "C125",
   "status": "partial",
   "theorems": [
    "Verif.AntStr.last_wins",
    "Verif.AntStr.all_last_counterexample",
    "Verif.AntStr.list_alone_counterexample",
    "Verif.AntStr.both_orders_counterexample"
   ],
   "note": "`all` as the last part and lists in parentheses by themselves do not say what they seem to."
  },
  {
   "property": "C126",
   "status": "partial",
   "theorems": [
    "Verif.AntStr.asked",
    "Verif.AntStr.excluded",
    "Verif.AntStr.pair_excluded",
    "Verif.AntStr.minus_all",
    "Verif.AntStr.kept",
    "Verif.AntStr.refused_iff",
    "Verif.AntStr.nothing_wanted_counterexample"
   ],
   "note": "If no pair of the data is asked for, the whole object is kept."
  },
  {
   "property": "C127",
   "status": "partial",
   "theorems": [
    "Verif.AntStr.pols_last_wins",
    "Verif.AntStr.two_feeds",
    "Verif.AntStr.oriented_never",
    "Verif.AntStr.feeds_oriented_counterexample",
    "Verif.AntStr.exclude_feeds_counterexample",
    "Verif.AntStr.feeds_mix_counterexample"
   ],
   "note": "With a known orientation of the feeds no linear polarization is chosen."
  },
  {
   "property": "C128",
   "status": "partial",
   "theorems": [
    "Verif.CalSelect.kept_partial",
    "Verif.CalSelect.absent_window_counterexample",
    "Verif.CalSelect.negative_counterexample",
    "Verif.CalSelect.one_each_counterexample",
    "Verif.CalSelect.mixed_counterexample"
   ],
   "note": "False for negative channel numbers and for windows that do not exist; proved for channels counted from the start."
  },
  {
   "property": "C129",
   "status": "partial",
   "theorems": [
    "Verif.CalSelect.unchanged",
    "Verif.CalSelect.whole_partial",
    "Verif.CalSelect.centers_counterexample",
    "Verif.CalSelect.window_counterexample",
    "Verif.CalSelect.channel_counterexample"
   ],
   "note": "False for phase centers, windows or channels that do not exist; proved for requests without these."
  },
  {
   "property": "C130",
   "status": "partial",
   "theorems": [
    "Verif.Compress.clusters_split",
    "Verif.Compress.rows_kept",
    "Verif.Compress.averaged_partial",
    "Verif.Compress.chain_counterexample",
    "Verif.Compress.flagged_counterexample"
   ],
   "note": "averaged_partial is for times that are equal or at least the tolerance apart, as clusters_split shows that find_clusters then gives the sets of equal times. chain_counterexample: otherwise the row may be left zero and unflagged. flagged_counterexample: a flagged channel becomes zero, a wholly flagged row does not."
  },
  {
   "property": "C131",
   "status": "partial",
   "theorems": [
    "Verif.Compress.redundant_kept_partial",
    "Verif.Compress.samples_conserved_partial",
    "Verif.Compress.cross_pols_counterexample",
    "Verif.Compress.lacking_counterexample"
   ],
   "note": "False for cross polarizations of conjugated baselines and for times that the first baseline lacks (counterexamples)."
  },
  {
   "property": "C132",
   "status": "proved",
   "theorems": [
    "Verif.Uvh5.read_part"
   ],
   "note": ""
  },
  {
   "property": "C133",
   "status": "proved",
   "theorems": [
    "Verif.Uvh5.write_part",
    "Verif.Uvh5.wrong_shape",
    "Verif.Uvh5.write_then_read"
   ],
   "note": ""
  },
  {
   "property": "C134",
   "status": "proved",
   "theorems": [
    "Verif.Uvh5.parts_written",
    "Verif.Uvh5.parts_are_whole"
   ],
   "note": ""
  },
  {
   "property": "C135",
   "status": "partial",
   "theorems": [
    "Verif.Uvh5.refused_partial",
    "Verif.Uvh5.refused_header",
    "Verif.Uvh5.second_refused",
    "Verif.Uvh5.history_replaced",
    "Verif.Uvh5.refused_counterexample",
    "Verif.Uvh5.history_counterexample"
   ],
   "note": "Missing: the object after a failed comparison of metadata; additions to the history over several parts (both false)."
  },
  {
   "property": "C136",
   "status": "partial",
   "theorems": [
    "Verif.FastMeta.times_exact",
    "Verif.FastMeta.antpairs_exact",
    "Verif.FastMeta.ants_exact",
    "Verif.FastMeta.no_error",
    "Verif.FastMeta.hera_counterexample",
    "Verif.FastMeta.twice_counterexample"
   ],
   "note": "Missing: files for which Nbls is wrong, and files with a row twice and a stated order (false)."
  },
  {
   "property": "C137",
   "status": "partial",
   "theorems": [
    "Verif.FastMeta.lsts_partial",
    "Verif.FastMeta.lsts_sorted",
    "Verif.FastMeta.lsts_hole_counterexample",
    "Verif.FastMeta.lsts_missing_counterexample"
   ],
   "note": "Missing: rows that are not a grid, files without sidereal times (false)."
  },
  {
   "property": "C138",
   "status": "partial",
   "theorems": [
    "Verif.FastMeta.key_pair",
    "Verif.FastMeta.key_found",
    "Verif.FastMeta.key_partial",
    "Verif.FastMeta.key_any",
    "Verif.FastMeta.key_counterexample"
   ],
   "note": "Missing: keys with a polarization on a pair that the file has in the other direction (false)."
  },
  {
   "property": "C139",
   "status": "partial",
   "theorems": [
    "Verif.FastMeta.nbls_partial",
    "Verif.FastMeta.hera_counterexample"
   ],
   "note": "Missing: files of HERA with as many baselines as rows (false)."
  },
  {
   "property": "C140",
   "status": "partial",
   "theorems": [
    "Verif.Norm.normalized_partial",
    "Verif.Norm.refused",
    "Verif.Norm.order_counterexample",
    "Verif.Norm.order_flags_counterexample"
   ],
   "note": "Missing: rows that are not in the order of time (false), times closer than the tolerance."
  },
  {
   "property": "C141",
   "status": "partial",
   "theorems": [
    "Verif.Norm.undone",
    "Verif.Norm.autos_counterexample",
    "Verif.Norm.flagged_counterexample"
   ],
   "note": "Missing: skip_autos=False (false)."
  },
  {
   "property": "C142",
   "status": "proved",
   "theorems": [
    "Verif.EqCoeff.removed",
    "Verif.EqCoeff.refused",
    "Verif.EqCoeff.again_counterexample"
   ],
   "note": "For objects whose statements about their rows are right and whose antennas belong to the telescope."
  },
  {
   "property": "C143",
   "status": "partial",
   "theorems": [
    "Verif.SumVis.accepted_iff",
    "Verif.SumVis.misnamed",
    "Verif.SumVis.sum_ok",
    "Verif.SumVis.unchanged",
    "Verif.SumVis.final_partial",
    "Verif.SumVis.files_counterexample",
    "Verif.SumVis.files_override_counterexample",
    "Verif.SumVis.nonstring_counterexample"
   ],
   "note": "Missing: data from different files (false), overrides that are not strings (false)."
  },
  {
   "property": "C144",
   "status": "proved",
   "theorems": [
    "Verif.SumVis.sum_diff"
   ],
   "note": "Exact arithmetic."
  },
  {
   "property": "C145",
   "status": "partial",
   "theorems": [
    "Verif.Check.passes_iff",
    "Verif.Check.baselines_counterexample",
    "Verif.Check.rect_counterexample"
   ],
   "note": "Missing: baseline numbers and the statement about a grid are not checked (false)."
  },
  {
   "property": "C146",
   "status": "partial",
   "theorems": [
    "Verif.Check.passes_iff",
    "Verif.Check.passed",
    "Verif.Check.real_after",
    "Verif.Check.negative_counterexample",
    "Verif.Check.flexpol_counterexample"
   ],
   "note": "Missing: real negative values stay (false), a polarization for each window (false)."
  },
  {
   "property": "C147",
   "status": "partial",
   "theorems": [
    "Verif.Check.unchanged",
    "Verif.Check.passed",
    "Verif.Check.again",
    "Verif.Check.turned_counterexample",
    "Verif.Check.nodata_counterexample"
   ],
   "note": "Missing: a failed check changes nothing (false if it may turn the object)."
  },
  {
   "property": "C148",
   "status": "partial",
   "theorems": [
    "Verif.H5Head.round_trip",
    "Verif.H5Head.not_ascii",
    "Verif.H5Head.slash",
    "Verif.H5Head.bytes_counterexample",
    "Verif.H5Head.list_counterexample",
    "Verif.H5Head.slash_counterexample",
    "Verif.H5Head.lost_counterexample",
    "Verif.H5Head.faster_counterexample",
    "Verif.H5Head.hera_counterexample"
   ],
   "note": "Missing: values and names that are written but do not come back are refused (false)."
  },
  {
   "property": "C149",
   "status": "partial",
   "theorems": [
    "Verif.KnownTel.kept",
    "Verif.KnownTel.filled_partial",
    "Verif.KnownTel.all_filled",
    "Verif.KnownTel.others_filled",
    "Verif.KnownTel.loc_eq",
    "Verif.KnownTel.incomplete",
    "Verif.KnownTel.order_counterexample",
    "Verif.KnownTel.nants_counterexample"
   ],
   "note": "Missing: antennas found by number before antennas found by name (false), number of antennas not set (false)."
  },
  {
   "property": "C150",
   "status": "partial",
   "theorems": [
    "Verif.FlagSel.kept",
    "Verif.FlagSel.ants_order",
    "Verif.FlagSel.Examples.twice_counterexample",
    "Verif.FlagSel.Examples.antInds_counterexample",
    "Verif.FlagSel.Examples.overridden_counterexample"
   ],
   "note": "Missing: positions of antennas of baseline objects, polarizations besides those of pairs (false)."
  },
  {
   "property": "C151",
   "status": "partial",
   "theorems": [
    "Verif.FlagSel.accepts_iff",
    "Verif.FlagSel.refused",
    "Verif.FlagSel.Examples.spoiled_counterexample",
    "Verif.FlagSel.Examples.oneChannel_counterexample",
    "Verif.FlagSel.Examples.collapsed_counterexample"
   ],
   "note": "Missing: wrong positions of antennas leave the object as it was (false)."
  },
  {
   "property": "C152",
   "status": "partial",
   "theorems": [
    "Verif.FlagMet.combine_accepts",
    "Verif.FlagMet.combine_spec",
    "Verif.FlagMet.combine_order",
    "Verif.FlagMet.combine_steps",
    "Verif.FlagMet.combine_steps_iff",
    "Verif.FlagMet.tiny_counterexample",
    "Verif.FlagMet.other_times_counterexample",
    "Verif.FlagMet.stale_counterexample"
   ],
   "note": "Missing: steps with tiny weights, squares of weights (false)."
  },
  {
   "property": "C153",
   "status": "partial",
   "theorems": [
    "Verif.FlagMet.pol_metric",
    "Verif.FlagMet.pol_accepts",
    "Verif.FlagMet.pol_flags",
    "Verif.FlagMet.pol_shares",
    "Verif.FlagMet.pol_spoils",
    "Verif.FlagMet.wf_metric",
    "Verif.FlagMet.wf_all",
    "Verif.FlagMet.wf_lsts",
    "Verif.FlagMet.wf_orders",
    "Verif.FlagMet.shares_counterexample",
    "Verif.FlagMet.unpack_counterexample",
    "Verif.FlagMet.spoiled_counterexample"
   ],
   "note": "Missing: weights of shares of flags, errors leave the object as it was (false)."
  },
  {
   "property": "C154",
   "status": "partial",
   "theorems": [
    "Verif.AntLike.sorted",
    "Verif.AntLike.unchanged",
    "Verif.AntLike.more",
    "Verif.AntLike.Examples.subset_counterexample",
    "Verif.AntLike.Examples.large_counterexample"
   ],
   "note": "Missing: antenna numbers above 99999 (false)."
  },
  {
   "property": "C155",
   "status": "partial",
   "theorems": [
    "Verif.ReadSel.read_selects_partial",
    "Verif.ReadSel.read_refused",
    "Verif.ReadSel.names_ignored_counterexample",
    "Verif.ReadSel.lst_ignored_counterexample",
    "Verif.ReadSel.string_ignored_counterexample",
    "Verif.ReadSel.mir_baselines"
   ],
   "note": "Missing: keywords that read drops for some types of files (false)."
  },
  {
   "property": "C156",
   "status": "partial",
   "theorems": [
    "Verif.ReadSel.tree_sum",
    "Verif.ReadSel.merge_sum",
    "Verif.ReadSel.merge_fold",
    "Verif.ReadSel.many_skip_partial",
    "Verif.ReadSel.many_strict_partial",
    "Verif.ReadSel.many_error_partial",
    "Verif.ReadSel.many_uncaught_partial",
    "Verif.ReadSel.one_names_counterexample",
    "Verif.ReadSel.two_chunks_counterexample",
    "Verif.ReadSel.fhd_counterexample",
    "Verif.ReadSel.warned_counterexample"
   ],
   "note": "Missing: keywords handed on for some files only, FHD data sets (false)."
  },
  {
   "property": "C157",
   "status": "partial",
   "theorems": [
    "Verif.MirSel.select_sp",
    "Verif.MirSel.select_closed",
    "Verif.MirSel.select_accepts",
    "Verif.MirSel.select_twice",
    "Verif.MirSel.select_reset",
    "Verif.MirSel.unknown_counterexample",
    "Verif.MirSel.unknown_alone_counterexample",
    "Verif.MirSel.tuple_counterexample",
    "Verif.MirSel.Examples.or_tables_counterexample",
    "Verif.MirSel.Examples.or_mask_counterexample",
    "Verif.MirSel.Examples.auto_stays_counterexample"
   ],
   "note": "Missing: unknown names, tuples, \"or\" across tables, and_mask=False, autocorrelations (false)."
  },
  {
   "property": "C158",
   "status": "partial",
   "theorems": [
    "Verif.MirSel.mir_antennas",
    "Verif.MirSel.mir_ignored_counterexample"
   ],
   "note": "Missing: bls and lst_range (false); other keywords by C157."
  },
  {
   "property": "C159",
   "status": "partial",
   "theorems": [
    "Verif.MsVis.one_survives",
    "Verif.MsVis.many_survives",
    "Verif.MsVis.unprojected_refused",
    "Verif.MsVis.stokes_refused",
    "Verif.MsVis.reversed_pair_counterexample",
    "Verif.MsVis.reversed_three_counterexample",
    "Verif.MsVis.single_refused_counterexample",
    "Verif.MsVis.single_one_left_counterexample",
    "Verif.MsVis.single_lost_counterexample",
    "Verif.MsVis.same_merged_counterexample",
    "Verif.MsVis.unsorted_labels_counterexample"
   ],
   "note": "Missing: polarizations in the opposite order, windows of one channel, rows of same time and antennas with several windows, unsorted polarizations of other files (false)."
  },
  {
   "property": "C160",
   "status": "partial",
   "theorems": [
    "Verif.MsVis.write_leaves",
    "Verif.MsVis.weight_many",
    "Verif.MsVis.in_place_counterexample",
    "Verif.MsVis.weight_counterexample"
   ],
   "note": "Missing: flip_conj with one window; weights of one window (false)."
  },
  {
   "property": "C161",
   "status": "partial",
   "theorems": [
    "Verif.MsCat.write_accepts",
    "Verif.MsCat.cat_back",
    "Verif.MsCat.pm_dec_counterexample",
    "Verif.MsCat.negative_counterexample",
    "Verif.MsCat.single_sample_counterexample",
    "Verif.MsCat.pop_counterexample"
   ],
   "note": "Missing: proper motions with different components, radial velocities and distances, negative numbers, ephemerides of one time, close times (false)."
  },
  {
   "property": "C162",
   "status": "partial",
   "theorems": [
    "Verif.MsAnt.ants_back",
    "Verif.MsAnt.ellipsoid_back",
    "Verif.MsAnt.instrument_counterexample",
    "Verif.MsAnt.center_counterexample",
    "Verif.MsAnt.diams_counterexample"
   ],
   "note": "Missing: instrument, antennas at the center, diameters that are not positive (false)."
  },
  {
   "property": "C163",
   "status": "proved",
   "theorems": [
    "Verif.Scan.scans_number",
    "Verif.Scan.same_scan",
    "Verif.Scan.scans_stay"
   ],
   "note": ""
  },
  {
   "property": "C164",
   "status": "proved",
   "theorems": [
    "Verif.Mwa.vis_of_antennas",
    "Verif.Mwa.pols_order",
    "Verif.Mwa.file_exists"
   ],
   "note": ""
  },
  {
   "property": "C165",
   "status": "partial",
   "theorems": [
    "Verif.Mwa.file_block",
    "Verif.Mwa.blocks_sorted",
    "Verif.Mwa.readFiles_get",
    "Verif.Mwa.readFiles_disjoint",
    "Verif.Mwa.freq_true",
    "Verif.Mwa.mwax_center",
    "Verif.Mwa.window_steps",
    "Verif.Mwa.freq_counterexample"
   ],
   "note": "Missing: frequencies of coarse channels that do not follow each other (false)."
  },
  {
   "property": "C166",
   "status": "proved",
   "theorems": [
    "Verif.Mwa.flagInit_accepts",
    "Verif.Mwa.flagInit_exact",
    "Verif.Mwa.goodtime_exact",
    "Verif.Mwa.missing_iff",
    "Verif.Mwa.coarseFlag_iff",
    "Verif.Mwa.missing_zero",
    "Verif.Mwa.aoFlag_iff"
   ],
   "note": ""
  },
  {
   "property": "C167",
   "status": "partial",
   "theorems": [
    "Verif.Mwa.small_parts",
    "Verif.Mwa.small_ants",
    "Verif.Mwa.small_counterexample"
   ],
   "note": "Missing: flag_small_auto_ants=True without removal (false)."
  },
  {
   "property": "C168",
   "status": "partial",
   "theorems": [
    "Verif.Mwa.bandCorr_undo",
    "Verif.Mwa.cableCorr_undo",
    "Verif.Mwa.cheb_poly",
    "Verif.Mwa.bilinear",
    "Verif.Mwa.chebCross_spec",
    "Verif.Mwa.crosses_solved",
    "Verif.Mwa.crosses_zero",
    "Verif.Mwa.sigPols_spec",
    "Verif.Mwa.crosses_sign_counterexample"
   ],
   "note": "Missing: negative values with zero sigma (false), convergence of the solver."
  },
  {
   "property": "C169",
   "status": "partial",
   "theorems": [
    "Verif.Miriad.bl2ant_ij2bl",
    "Verif.Miriad.getIJ_mkbl",
    "Verif.Miriad.readCalls_partial",
    "Verif.Miriad.readSel_partial",
    "Verif.Miriad.otherKeywords_counterexample",
    "Verif.Miriad.emptyIntersection_counterexample",
    "Verif.Miriad.unsorted_counterexample",
    "Verif.Miriad.otherLengths_counterexample",
    "Verif.Miriad.pointRange_counterexample",
    "Verif.Miriad.getIJ_mkbl_counterexample"
   ],
   "note": "Missing: several pairs with times or polarizations, disjoint or unsorted antennas, integrations of different lengths (all false)."
  },
  {
   "property": "C170",
   "status": "partial",
   "theorems": [
    "Verif.Miriad.readRows_write_partial",
    "Verif.Miriad.readRows_complete",
    "Verif.Miriad.sameRows_counterexample",
    "Verif.Miriad.missing_counterexample",
    "Verif.Miriad.flaggedRow_counterexample"
   ],
   "note": "Missing: rows with the same time and antennas, missing records (false); order of texts, rounding to 32 bits."
  },
  {
   "property": "C171",
   "status": "partial",
   "theorems": [
    "Verif.Miriad.readAnts_write_partial",
    "Verif.Miriad.splitCS_joinCS",
    "Verif.Miriad.permuted_counterexample",
    "Verif.Miriad.oneAntenna_counterexample",
    "Verif.Miriad.names_counterexample"
   ],
   "note": "Missing: unsorted numbers without gaps, one antenna, names with a comma and a blank (all false)."
  },
  {
   "property": "C172",
   "status": "partial",
   "theorems": [
    "Verif.Miriad.readFreqs_write_partial",
    "Verif.Miriad.oneChannel_counterexample",
    "Verif.Miriad.windowNumbers_counterexample"
   ],
   "note": "Missing: windows of one channel, numbers of windows (false)."
  },
  {
   "property": "C173",
   "status": "partial",
   "theorems": [
    "Verif.Miriad.readKey_write_partial",
    "Verif.Miriad.longName_counterexample",
    "Verif.Miriad.sameStart_counterexample",
    "Verif.Miriad.trueText_counterexample",
    "Verif.Miriad.largeInt_counterexample",
    "Verif.Miriad.knownName_counterexample",
    "Verif.Miriad.npBool_counterexample"
   ],
   "note": "Missing: long names, \"True\" as a text, large integers, known names, truth values of numpy (all false)."
  },
  {
   "property": "C174",
   "status": "partial",
   "theorems": [
    "Verif.FlagIo.vis_baseline",
    "Verif.FlagIo.vis_flags",
    "Verif.FlagIo.vis_waterfall",
    "Verif.FlagIo.vis_refused",
    "Verif.FlagIo.cal_antenna",
    "Verif.FlagIo.cal_flags",
    "Verif.FlagIo.cal_waterfall",
    "Verif.FlagIo.cal_refused",
    "Verif.FlagIo.vis_file",
    "Verif.FlagIo.used_counterexample",
    "Verif.FlagIo.calKeywords_counterexample"
   ],
   "note": "Missing: objects that were used before, keywords of calibrations (false)."
  },
  {
   "property": "C175",
   "status": "partial",
   "theorems": [
    "Verif.FlagIo.tells_read",
    "Verif.FlagIo.write_tells",
    "Verif.FlagIo.write_read",
    "Verif.FlagIo.read_history",
    "Verif.FlagIo.read_name",
    "Verif.FlagIo.strange_refused",
    "Verif.FlagIo.read_baselines",
    "Verif.FlagIo.read_antennas",
    "Verif.FlagIo.unknown_antennas",
    "Verif.FlagIo.numbering_counterexample",
    "Verif.FlagIo.descending_counterexample",
    "Verif.FlagIo.oneChannel_counterexample"
   ],
   "note": "Missing: other numberings of baselines, widths for descending frequencies or one channel (false)."
  },
  {
   "property": "C176",
   "status": "partial",
   "theorems": [
    "Verif.FlagIo.readMany_append",
    "Verif.FlagIo.initMany_append",
    "Verif.FlagIo.initMany_one",
    "Verif.FlagIo.initOne_given",
    "Verif.FlagIo.readMany_counterexample",
    "Verif.FlagIo.ignored_counterexample"
   ],
   "note": "Missing: keywords for the first file, telescope name, label (false)."
  },
  {
   "property": "C177",
   "status": "partial",
   "theorems": [
    "Verif.MirData.conv_back",
    "Verif.MirData.packed_range",
    "Verif.MirData.raw_back_partial",
    "Verif.MirData.flaggedLarge_counterexample",
    "Verif.MirData.edge_counterexample",
    "Verif.MirData.tiny_counterexample"
   ],
   "note": "Missing: good channels alone set the precision; packed values of -32768 that are no flags; exponents below -66 (false)."
  },
  {
   "property": "C178",
   "status": "partial",
   "theorems": [
    "Verif.MirData.rechunk_isSome",
    "Verif.MirData.rechunk_mean",
    "Verif.MirData.rechunk_one",
    "Verif.MirData.rechunk_twice",
    "Verif.MirData.rechunkLoaded_partial",
    "Verif.MirData.rechunkOrder_counterexample"
   ],
   "note": "Missing: data in another order than the table (false)."
  },
  {
   "property": "C179",
   "status": "partial",
   "theorems": [
    "Verif.MirData.tsysWt_meaning",
    "Verif.MirData.tsys_agree",
    "Verif.MirData.tsysWt_undo",
    "Verif.MirData.tsysWt_flags",
    "Verif.MirData.tsysDet_flags",
    "Verif.MirData.tsysDetUndo_counterexample",
    "Verif.MirData.tsysCmd_refused",
    "Verif.MirData.tsysCmd_state",
    "Verif.MirData.rechunk_scaled",
    "Verif.MirData.tsys_rechunk"
   ],
   "note": "Missing: weights after undoing with detectors (false)."
  },
  {
   "property": "C180",
   "status": "partial",
   "theorems": [
    "Verif.MirData.load_good_partial",
    "Verif.MirData.load_again",
    "Verif.MirData.loadTsys_counterexample",
    "Verif.MirData.loadCal_counterexample"
   ],
   "note": "Missing: temperatures and gains as asked for when data are loaded already (false)."
  },
  {
   "property": "C181",
   "status": "partial",
   "theorems": [
    "Verif.MirPack.write_read",
    "Verif.MirPack.scan_write",
    "Verif.MirPack.scan_cut",
    "Verif.MirPack.mmapAll_exact",
    "Verif.MirPack.readPos_eq",
    "Verif.MirPack.fill_eq",
    "Verif.MirPack.fileAll_partial",
    "Verif.MirPack.fileAll_counterexample"
   ],
   "note": "Missing: gaps and changes of size without memory maps (false)."
  },
  {
   "property": "C182",
   "status": "proved",
   "theorems": [
    "Verif.MirPack.groupBy_eq",
    "Verif.MirPack.groupBy_keys",
    "Verif.MirPack.groupBy_mem"
   ],
   "note": ""
  },
  {
   "property": "C183",
   "status": "partial",
   "theorems": [
    "Verif.Cst.grid_read_partial",
    "Verif.Cst.read_regular",
    "Verif.Cst.spaced_const",
    "Verif.Cst.readPower_file",
    "Verif.Cst.readField_file",
    "Verif.Cst.power_of_field",
    "Verif.Cst.reversed_counterexample",
    "Verif.Cst.hole_counterexample"
   ],
   "note": "Missing: rows in another order, and grids with a hole (false)."
  },
  {
   "property": "C184",
   "status": "partial",
   "theorems": [
    "Verif.Cst.second_meaning",
    "Verif.Cst.circle_rotated",
    "Verif.Cst.closed_refused",
    "Verif.Cst.rotPol_twice",
    "Verif.Cst.labels_agree",
    "Verif.Cst.feeds_counterexample"
   ],
   "note": "Missing: labels of fields for feeds other than x and y (false)."
  },
  {
   "property": "C185",
   "status": "partial",
   "theorems": [
    "Verif.Cst.name2freq_written",
    "Verif.Cst.si_units",
    "Verif.Cst.header_text",
    "Verif.Cst.colOf_some",
    "Verif.Cst.colOf_none",
    "Verif.Cst.powerCol_iff",
    "Verif.Cst.point_counterexample",
    "Verif.Cst.exponent_counterexample",
    "Verif.Cst.tab_counterexample"
   ],
   "note": "Missing: numbers after a point, exponents, tabs in names (false)."
  },
  {
   "property": "C186",
   "status": "partial",
   "theorems": [
    "Verif.Cst.files_lists",
    "Verif.Cst.files_single",
    "Verif.Cst.files_refused",
    "Verif.Cst.settings_select",
    "Verif.Cst.pick_none",
    "Verif.Cst.settings_override",
    "Verif.Cst.extra_kept",
    "Verif.Cst.twice_counterexample",
    "Verif.Cst.extra_counterexample"
   ],
   "note": "Missing: a frequency twice, extra keywords over settings (false)."
  },
  {
   "property": "C187",
   "status": "proved",
   "theorems": [
    "Verif.MwaBeam.read_field",
    "Verif.MwaBeam.response_sum",
    "Verif.MwaBeam.dipole_read",
    "Verif.MwaBeam.psinArray_place",
    "Verif.MwaBeam.p1Array_place",
    "Verif.MwaBeam.sumOrders_eq"
   ],
   "note": ""
  },
  {
   "property": "C188",
   "status": "partial",
   "theorems": [
    "Verif.MwaBeam.texts_in_order",
    "Verif.MwaBeam.dipoles_in_order_partial",
    "Verif.MwaBeam.sixteen_counterexample"
   ],
   "note": "Missing: numbers with different numbers of digits (false)."
  },
  {
   "property": "C189",
   "status": "partial",
   "theorems": [
    "Verif.MwaBeam.read_field",
    "Verif.MwaBeam.read_default",
    "Verif.MwaBeam.big_refused",
    "Verif.MwaBeam.shape_refused",
    "Verif.MwaBeam.arrays_changed",
    "Verif.MwaBeam.again_counterexample"
   ],
   "note": "Missing: arrays of the caller stay (false)."
  },
  {
   "property": "C190",
   "status": "partial",
   "theorems": [
    "Verif.MwaBeam.read_field",
    "Verif.MwaBeam.directions",
    "Verif.MwaBeam.range_refused",
    "Verif.MwaBeam.turn_counterexample",
    "Verif.MwaBeam.vector_counterexample",
    "Verif.MwaBeam.nadir_counterexample"
   ],
   "note": "Missing: whole turns for other resolutions, directions of the components (false)."
  },
  {
   "property": "C191",
   "status": "proved",
   "theorems": [
    "Verif.MirShift.whole_moves",
    "Verif.MirShift.whole_near",
    "Verif.MirShift.whole_exact",
    "Verif.MirShift.parts_near",
    "Verif.MirShift.kernel_refused"
   ],
   "note": ""
  },
  {
   "property": "C192",
   "status": "partial",
   "theorems": [
    "Verif.MirShift.linear_moves",
    "Verif.MirShift.kernel_parts",
    "Verif.MirShift.cubic_half_partial",
    "Verif.MirShift.cubic_mirrored_counterexample",
    "Verif.MirShift.cubicAt_ramp",
    "Verif.MirShift.cubic_ramp_counterexample"
   ],
   "note": "Missing: cubic kernel for fractions other than one half (false)."
  },
  {
   "property": "C193",
   "status": "partial",
   "theorems": [
    "Verif.MirShift.flags_spread",
    "Verif.MirShift.flags_dropped_counterexample"
   ],
   "note": "Missing: flags without flag_adj (false)."
  },
  {
   "property": "C194",
   "status": "proved",
   "theorems": [
    "Verif.MirShift.redoppler_each",
    "Verif.MirShift.redoppler_whole"
   ],
   "note": ""
  },
  {
   "property": "C195",
   "status": "partial",
   "theorems": [
    "Verif.Compass.calibrated_partial",
    "Verif.Compass.unknown_flagged",
    "Verif.Compass.corr_get",
    "Verif.Compass.dget_pairs",
    "Verif.Compass.dget_ant",
    "Verif.Compass.calibrate_both",
    "Verif.Compass.mixed_counterexample"
   ],
   "note": "Missing: cross hands beside parallel hands (false)."
  },
  {
   "property": "C196",
   "status": "partial",
   "theorems": [
    "Verif.Compass.record_flags",
    "Verif.Compass.static_flags_partial",
    "Verif.Compass.integration_near",
    "Verif.Compass.unpack_bit",
    "Verif.Compass.calibrate_both",
    "Verif.Compass.static_flags_counterexample"
   ],
   "note": "Missing: flags of antennas for cross hands beside parallel hands (false)."
  },
  {
   "property": "C197",
   "status": "partial",
   "theorems": [
    "Verif.MsCal.round_trip",
    "Verif.MsCal.labels_agree",
    "Verif.MsCal.channels_perm",
    "Verif.MsCal.jones_counterexample"
   ],
   "note": "Missing: two Jones terms that are not in the order of CASA (false)."
  },
  {
   "property": "C198",
   "status": "proved",
   "theorems": [
    "Verif.MsCal.times_back",
    "Verif.MsCal.ref_back"
   ],
   "note": ""
  },
  {
   "property": "C199",
   "status": "partial",
   "theorems": [
    "Verif.MsCal.refused",
    "Verif.MsCal.total_quality_counterexample",
    "Verif.MsCal.extra_counterexample"
   ],
   "note": "Missing: total qualities and extra keywords (false)."
  },
  {
   "property": "C200",
   "status": "partial",
   "theorems": [
    "Verif.MsCal.near_times_partial",
    "Verif.MsCal.near_index_counterexample",
    "Verif.MsCal.near_read_counterexample",
    "Verif.MsCal.near_wrong_counterexample"
   ],
   "note": "Missing: several pairs of close times (false)."
  },
  {
   "property": "C201",
   "status": "proved",
   "theorems": [
    "Verif.Fhd.classify_iff",
    "Verif.Fhd.vis_read",
    "Verif.Fhd.vis_ok",
    "Verif.Fhd.vis_refused",
    "Verif.Fhd.vis_order"
   ],
   "note": ""
  },
  {
   "property": "C202",
   "status": "proved",
   "theorems": [
    "Verif.Fhd.times_bins",
    "Verif.Fhd.antOf_tile",
    "Verif.Fhd.conj_uvw"
   ],
   "note": ""
  },
  {
   "property": "C203",
   "status": "partial",
   "theorems": [
    "Verif.Fhd.cal_read",
    "Verif.Fhd.convention_counterexample"
   ],
   "note": "Missing: the convention of polarizations (false)."
  },
  {
   "property": "C204",
   "status": "proved",
   "theorems": [
    "Verif.CalConcat.concat_values",
    "Verif.CalConcat.concat_labels",
    "Verif.CalConcat.concat_rest"
   ],
   "note": ""
  },
  {
   "property": "C205",
   "status": "partial",
   "theorems": [
    "Verif.CalConcat.refused_unchanged",
    "Verif.CalConcat.concat_rest",
    "Verif.CalConcat.history_counterexample",
    "Verif.CalConcat.windows_counterexample"
   ],
   "note": "Missing: the history of a refused object, and windows that are not compared (false)."
  },
  {
   "property": "C206",
   "status": "partial",
   "theorems": [
    "Verif.CalConcat.flex_partial",
    "Verif.CalConcat.split_counterexample",
    "Verif.CalConcat.order_counterexample"
   ],
   "note": "Missing: windows in several objects or in another order (false)."
  },
  {
   "property": "C207",
   "status": "proved",
   "theorems": [
    "Verif.CalGet.get_pair",
    "Verif.CalGet.get_antenna",
    "Verif.CalGet.get_refused",
    "Verif.CalGet.times_center",
    "Verif.CalGet.times_given"
   ],
   "note": ""
  },
  {
   "property": "C208",
   "status": "partial",
   "theorems": [
    "Verif.CalH5.part_partial",
    "Verif.CalH5.part_succeeds_partial",
    "Verif.CalH5.header_only_counterexample",
    "Verif.CalH5.from_end_counterexample",
    "Verif.CalH5.twice_counterexample",
    "Verif.CalH5.absent_channel_counterexample",
    "Verif.CalH5.unused_window_counterexample"
   ],
   "note": "Missing: channels from the end or that do not exist, windows without channels, selections without arrays (false)."
  },
  {
   "property": "C209",
   "status": "proved",
   "theorems": [
    "Verif.CalHead.round_trip",
    "Verif.CalHead.empty_catalog_counterexample",
    "Verif.CalHead.wide_windows_counterexample",
    "Verif.CalHead.no_times_counterexample"
   ],
   "note": "For objects that have their required parameters."
  },
  {
   "property": "C210",
   "status": "partial",
   "theorems": [
    "Verif.NewCal.accept",
    "Verif.NewCal.made",
    "Verif.NewCal.one_range_counterexample",
    "Verif.NewCal.delay_channels_counterexample"
   ],
   "note": "Missing: one range of times without integration time, delays for channels (false)."
  },
  {
   "property": "C211",
   "status": "partial",
   "theorems": [
    "Verif.NewCal.vis_times",
    "Verif.NewCal.vis_ants",
    "Verif.NewCal.vis_channels",
    "Verif.NewCal.vis_windows",
    "Verif.NewCal.vis_ranges",
    "Verif.NewCal.vis_jones_partial",
    "Verif.NewCal.jones_feeds",
    "Verif.NewCal.vis_telescope",
    "Verif.NewCal.antennas_part",
    "Verif.NewCal.vis_succeeds",
    "Verif.NewCal.diameters_partial",
    "Verif.NewCal.diameters_counterexample",
    "Verif.NewCal.mixed_counterexample"
   ],
   "note": "Missing: diameters of unsorted antennas, mixed polarizations (false)."
  },
  {
   "property": "C212",
   "status": "partial",
   "theorems": [
    "Verif.NewBeam.accept",
    "Verif.NewBeam.made",
    "Verif.NewBeam.system_counterexample",
    "Verif.NewBeam.cross_counterexample",
    "Verif.NewBeam.names_counterexample"
   ],
   "note": "Missing: coordinate systems of axes, cross polarizations without data, names with directions (false)."
  },
  {
   "property": "C213",
   "status": "partial",
   "theorems": [
    "Verif.NewBeam.auto_check",
    "Verif.NewBeam.auto_fixed",
    "Verif.NewBeam.auto_keeps_partial",
    "Verif.NewBeam.negative_counterexample",
    "Verif.NewBeam.magnitude_counterexample"
   ],
   "note": "Missing: negative values and values that are not real (false)."
  },
  {
   "property": "C214",
   "status": "partial",
   "theorems": [
    "Verif.Lst.erfa_times",
    "Verif.Lst.astropy_times",
    "Verif.Lst.novas_agrees",
    "Verif.Lst.moon_library",
    "Verif.Lst.warns_iff",
    "Verif.Lst.wrap_counterexample",
    "Verif.Lst.location_counterexample",
    "Verif.Lst.default_counterexample"
   ],
   "note": "Missing: sidereal times at the end of a turn, novas with location objects (false)."
  },
  {
   "property": "C215",
   "status": "partial",
   "theorems": [
    "Verif.MirVis.placed_partial",
    "Verif.MirVis.unfilled_partial",
    "Verif.MirVis.window_ids",
    "Verif.MirVis.freq_even",
    "Verif.MirVis.rows_sorted",
    "Verif.MirVis.windows_sorted",
    "Verif.MirVis.pol_receivers",
    "Verif.MirVis.split_iff",
    "Verif.MirVis.codes_counterexample",
    "Verif.MirVis.flex_counterexample",
    "Verif.MirVis.nbls_iff"
   ],
   "note": "Missing: polarizations tuned to different frequencies of which none has the code 1, data in which a pair of antennas is missing (false)."
  },
  {
   "property": "C216",
   "status": "partial",
   "theorems": [
    "Verif.MirAdd.sum_partial",
    "Verif.MirAdd.empty_sum",
    "Verif.MirAdd.order_counterexample",
    "Verif.MirAdd.discard_counterexample",
    "Verif.MirAdd.index_counterexample"
   ],
   "note": "Missing: discard_flagged, unsorted tables with the same keys (false)."
  },
  {
   "property": "C217",
   "status": "partial",
   "theorems": [
    "Verif.MirCat.keys_different",
    "Verif.MirCat.places_partial",
    "Verif.MirCat.loaded_partial",
    "Verif.MirCat.refused_iff",
    "Verif.MirCat.number_counterexample",
    "Verif.MirCat.missing_counterexample",
    "Verif.MirCat.inplace_counterexample"
   ],
   "note": "Missing: integrations with numbers of both objects, and scales in place (false)."
  },
  {
   "property": "C218",
   "status": "partial",
   "theorems": [
    "Verif.MirGet.get_partial",
    "Verif.MirGet.get_all",
    "Verif.MirGet.get_keys",
    "Verif.MirGet.set_partial",
    "Verif.MirGet.set_keys",
    "Verif.MirGet.reset_restores",
    "Verif.MirGet.reset_named",
    "Verif.MirGet.or_counterexample"
   ],
   "note": "Missing: alternatives of used records (false)."
  },
  {
   "property": "C219",
   "status": "partial",
   "theorems": [
    "Verif.MsHist.trip_partial",
    "Verif.MsHist.write_lines",
    "Verif.MsHist.kept",
    "Verif.MsHist.plain_trip",
    "Verif.MsHist.second_trip",
    "Verif.MsHist.order_counterexample",
    "Verif.MsHist.empty_counterexample",
    "Verif.MsHist.semicolon",
    "Verif.MsHist.semicolon_counterexample"
   ],
   "note": "Missing: several lines before the table, entries with semicolons (false)."
  },
  {
   "property": "C220",
   "status": "partial",
   "theorems": [
    "Verif.Track.track_partial",
    "Verif.Track.rows_partial",
    "Verif.Track.rows_single",
    "Verif.Track.app_sorted_partial",
    "Verif.Track.app_rank",
    "Verif.Track.mem_pairs",
    "Verif.Track.pairs_nodup",
    "Verif.Track.row_fields",
    "Verif.Track.force_positive",
    "Verif.Track.epoch_counterexample",
    "Verif.Track.times_counterexample",
    "Verif.Track.order_counterexample",
    "Verif.Track.app_repeated",
    "Verif.Track.one_time_counterexample"
   ],
   "note": "Missing: epochs, several positions unless the times of rows increase (false); sources that are not sidereal."
  },
  {
   "property": "C221",
   "status": "partial",
   "theorems": [
    "Verif.AppSet.rows_set_partial",
    "Verif.AppSet.rows_set",
    "Verif.AppSet.angles_only",
    "Verif.AppSet.kept",
    "Verif.AppSet.succeeds",
    "Verif.AppSet.missing_entry",
    "Verif.AppSet.velocity_counterexample"
   ],
   "note": "Missing: sources with a velocity (false)."
  },
  {
   "property": "C222",
   "status": "partial",
   "theorems": [
    "Verif.Resample.resample_nothing",
    "Verif.Resample.resample_down",
    "Verif.Resample.resample_up",
    "Verif.Resample.resample_both",
    "Verif.Resample.resample_short",
    "Verif.Resample.resample_conserves_partial",
    "Verif.Resample.both_counterexample"
   ],
   "note": "Missing: averaged rows not shorter than the target if there are long rows too (false), rows longer than the target by less than the tolerance (lost)."
  },
  {
   "property": "C223",
   "status": "partial",
   "theorems": [
    "Verif.MirLoc.absolute_kept",
    "Verif.MirLoc.relative_kept",
    "Verif.MirLoc.antennas",
    "Verif.MirLoc.missing_zero",
    "Verif.MirLoc.load_error",
    "Verif.MirLoc.location_altitude",
    "Verif.MirLoc.location_known",
    "Verif.MirLoc.location_mean_partial",
    "Verif.MirLoc.location_sea",
    "Verif.MirLoc.wrapped_counterexample"
   ],
   "note": "Missing: mean heights for longitudes between a half and a whole turn (false)."
  },
  {
   "property": "C224",
   "status": "proved",
   "theorems": [
    "Verif.FileNames.all_names",
    "Verif.FileNames.two_ascending",
    "Verif.FileNames.one_kept",
    "Verif.FileNames.order_irrelevant",
    "Verif.FileNames.groups",
    "Verif.FileNames.same_names"
   ],
   "note": ""
  },
  {
   "property": "C225",
   "status": "partial",
   "theorems": [
    "Verif.MirMask.restored_partial",
    "Verif.MirMask.save_spec",
    "Verif.MirMask.restore_unknown",
    "Verif.MirMask.read_clears",
    "Verif.MirMask.read_counterexample"
   ],
   "note": "Missing: masks stored before another file is read into the object (false)."
  },
  {
   "property": "C226",
   "status": "proved",
   "theorems": [
    "Verif.MirFix.fixed"
   ],
   "note": ""
  },
  {
   "property": "C227",
   "status": "partial",
   "theorems": [
    "Verif.MirUvw.divided_partial",
    "Verif.MirUvw.meters_partial",
    "Verif.MirUvw.meters_kept",
    "Verif.MirUvw.median_majority",
    "Verif.MirUvw.convert_error",
    "Verif.MirUvw.zero_counterexample"
   ],
   "note": "Missing: baselines with coordinates that are zero (false)."
  },
  {
   "property": "C228",
   "status": "proved",
   "theorems": [
    "Verif.MirOnline.apply_returns",
    "Verif.MirOnline.apply_marked",
    "Verif.MirOnline.apply_error",
    "Verif.MirOnline.apply_twice"
   ],
   "note": ""
  },
  {
   "property": "C229",
   "status": "partial",
   "theorems": [
    "Verif.MirOnline.fill_pol",
    "Verif.MirOnline.fill_rec",
    "Verif.MirOnline.fill_twice",
    "Verif.MirOnline.fill_kept_partial",
    "Verif.MirOnline.fill_counterexample"
   ],
   "note": "Missing: files in which one antenna has receiver 0 everywhere (false)."
  },
  {
   "property": "C230",
   "status": "partial",
   "theorems": [
    "Verif.FhdNames.names",
    "Verif.FhdNames.one_run_partial",
    "Verif.FhdNames.two_runs",
    "Verif.FhdNames.two_data_partial",
    "Verif.FhdNames.missing_suffix",
    "Verif.FhdNames.missing_sub",
    "Verif.FhdNames.same_data_counterexample"
   ],
   "note": "Missing: data whose name has a suffix in it (false)."
  },
  {
   "property": "C231",
   "status": "partial",
   "theorems": [
    "Verif.MirCipher.match_same",
    "Verif.MirCipher.match_antennas_partial",
    "Verif.MirCipher.match_length",
    "Verif.MirCipher.negative_counterexample"
   ],
   "note": "Missing: negative numbers of antennas in types of different size (false)."
  },
  {
   "property": "C232",
   "status": "proved",
   "theorems": [
    "Verif.FhdHist.history_of",
    "Verif.FhdHist.history_no_obs",
    "Verif.FhdHist.history_error"
   ],
   "note": ""
  },
  {
   "property": "C233",
   "status": "partial",
   "theorems": [
    "Verif.MirCodes.codes_error",
    "Verif.MirCodes.number_to_code",
    "Verif.MirCodes.code_to_number_partial",
    "Verif.MirCodes.codes_list",
    "Verif.MirCodes.codes_dict",
    "Verif.MirCodes.same_text_counterexample"
   ],
   "note": "Missing: codes in which two numbers have one text (false)."
  }
 ]
}