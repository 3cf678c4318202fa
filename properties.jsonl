{"id": "C01", "title": "Baseline numbers decode back to the antenna pairs they encode", "statement": "For any arrays of antenna numbers accepted by antnums_to_baseline (default or attempt256 convention), calling baseline_to_antnums on the returned array gives back exactly the two input arrays, element for element.", "quantifier": "every non-empty pair of equal-length antenna-number arrays (any length, any values the encoder accepts), every Nants_telescope (or None) and both attempt256 settings", "why_tests_cant": "The convention is chosen from the maximum over the whole array and re-derived by the decoder from the minimum over the whole array; agreement for every array mix cannot be sampled.", "anchors": ["src/pyuvdata/utils/bls.py:antnums_to_baseline", "src/pyuvdata/utils/bls.py:baseline_to_antnums", "src/pyuvdata/utils/bls.pyx:antnums_to_baseline", "src/pyuvdata/utils/bls.pyx:baseline_to_antnums"]}
{"id": "C02", "title": "Distinct antenna pairs never share a baseline number within one call", "statement": "Within one antnums_to_baseline call two positions get equal baseline numbers if and only if their (ant1, ant2) pairs are equal, and one number is smaller than another exactly when its pair is lexicographically smaller. Hence counting unique baseline numbers counts unique antenna pairs.", "quantifier": "every accepted pair of antenna arrays and every two positions in them", "why_tests_cant": "A collision would only appear at particular antenna-number combinations; the space is 2^62 pairs per convention.", "anchors": ["src/pyuvdata/utils/bls.py:antnums_to_baseline", "src/pyuvdata/utils/bls.pyx:antnums_to_baseline"]}
{"id": "C03", "title": "Encoding never wraps 64-bit arithmetic and its output is always accepted by the decoder", "statement": "Every baseline number produced by antnums_to_baseline for accepted inputs equals the mathematical (unbounded) value of the formula, is below 2^63, and lies in the range baseline_to_antnums accepts without raising.", "quantifier": "every accepted antenna array pair, every Nants_telescope ≤ 2^31 and both attempt256 settings", "why_tests_cant": "The extreme values (antenna 2^31-1) sit next to the decoder's hard-coded limit 4611686018498691072; tests only touch a few points.", "anchors": ["src/pyuvdata/utils/bls.py:antnums_to_baseline", "src/pyuvdata/utils/bls.py:baseline_to_antnums", "src/pyuvdata/utils/bls.pyx:_antnum_to_bl_2147483648"]}
{"id": "C04", "title": "baseline_index_flip denotes the swapped antenna pair", "statement": "baseline_index_flip(b) is a baseline number that decodes to the swapped antenna pair of b; flipping twice decodes to the original pair, and returns exactly b when b is in the convention the encoder would choose.", "quantifier": "every baseline number array that is non-negative and accepted, every Nants_telescope", "why_tests_cant": "The flip re-encodes with a possibly different convention, so it is not simply a permutation of table entries.", "anchors": ["src/pyuvdata/utils/bls.py:baseline_index_flip"]}
{"id": "C05", "title": "Miriad-convention baseline numbers identify the antenna pair", "statement": "With use_miriad_convention=True, baseline_to_antnums applied to the number returned for an antenna pair gives that pair back.", "quantifier": "every antenna pair accepted by antnums_to_baseline", "why_tests_cant": "Failure needs specific antenna-number combinations (one antenna above and one at or below 255).", "anchors": ["src/pyuvdata/utils/bls.pyx:_antnum_to_bl_2048_miriad", "src/pyuvdata/utils/bls.py:antnums_to_baseline"]}
{"id": "C06", "title": "Decoding an array of baseline numbers agrees with decoding each number alone", "statement": "baseline_to_antnums on an array returns, at each position, what it returns when called with that single number.", "quantifier": "every non-empty array of accepted baseline numbers", "why_tests_cant": "The decoder picks one convention for the whole array from its minimum; arrays mixing conventions are rarely built in tests.", "anchors": ["src/pyuvdata/utils/bls.py:baseline_to_antnums", "src/pyuvdata/utils/bls.pyx:baseline_to_antnums"]}
{"id": "C07", "title": "Index lists converted to slices select the same elements", "statement": "For an index list the list of slices returned by _convert_to_slices, applied in order to an axis long enough to hold the indices and concatenated, selects exactly the requested positions in the requested order; likewise slicify.", "quantifier": "every strictly increasing list of non-negative indices, every option setting, every axis", "why_tests_cant": "The greedy splitting has many branch interleavings (restart after a step change, trailing single index); off-by-one errors silently read wrong channels.", "anchors": ["src/pyuvdata/utils/tools.py:_convert_to_slices", "src/pyuvdata/utils/tools.py:slicify"]}
{"id": "C08", "title": "HDF5 partial reads return exactly the selected sub-array", "statement": "Reading a dataset through _index_dset with, per axis, an integer, a slice, an index list or a list of slices returns an array whose entry (i,j,k) is the dataset entry at the i-th, j-th and k-th selected positions of the three axes, and the shape predicted beforehand is the shape filled.", "quantifier": "every dataset, every combination of selections on its axes with well-formed slices", "why_tests_cant": "The function fills an uninitialised buffer block by block over a cartesian product of slices; a gap would leave garbage that tests on small products cannot exclude.", "anchors": ["src/pyuvdata/utils/io/hdf5.py:_index_dset", "src/pyuvdata/utils/io/hdf5.py:_get_dset_shape", "src/pyuvdata/utils/io/hdf5.py:_get_slice_len"]}
{"id": "C09", "title": "HDF5 partial writes change exactly the selected cells", "statement": "Writing an array through _index_dset stores array entry (i,j,k) at the i-th, j-th and k-th selected positions and leaves every other dataset cell unchanged; reading the same selection back returns the array written.", "quantifier": "every dataset, every array of matching shape and every selection without repeated positions", "why_tests_cant": "Block-wise writes over a cartesian product; unselected cells being disturbed would be found only by exhaustive comparison.", "anchors": ["src/pyuvdata/utils/io/hdf5.py:_index_dset"]}
{"id": "C10", "title": "A reported baseline-time order is the actual order", "statement": "If determine_blt_order returns (major, minor) then the baseline-time axis is sorted by the major key with ties sorted by the minor key; if it returns a single key the axis is sorted by that key.", "quantifier": "every set of equal-length time/ant1/ant2/baseline arrays and every Nbls, Ntimes", "why_tests_cant": "Ten flags are updated through one pass with boundary conditions; a wrong flag shows only for particular interleavings.", "anchors": ["src/pyuvdata/utils/bltaxis.py:determine_blt_order"]}
{"id": "C11", "title": "Reported rectangularity is real", "statement": "If determine_rectangularity returns (True, True) every baseline has the same Ntimes times in the same order and each baseline's rows are contiguous; if it returns (True, False) every time has the same Nbls baselines in the same order and each time's rows are contiguous.", "quantifier": "every time/baseline array with Nbls and Ntimes equal to the numbers of distinct values, every stated blt_order", "why_tests_cant": "Early exits trust array size and a remembered order; counterexamples need duplicate rows or a stale order.", "anchors": ["src/pyuvdata/utils/bltaxis.py:determine_rectangularity"]}
{"id": "C12", "title": "reorder_blts moves whole records and sorts them as requested", "statement": "After reorder_blts every baseline-time record (antennas, baseline, time, lst, integration time, uvw, phase-centre fields and the data, flag and nsample rows) of the original is present exactly once with its fields still together, and the records are sorted by the requested order and minor order.", "quantifier": "every object, every order/minor_order combination, autos_first on or off", "why_tests_cant": "Each attribute is permuted separately; only a proof over all arrays rules out one of them being left behind or a sort key reversed.", "anchors": ["src/pyuvdata/uvdata/uvdata.py:reorder_blts"]}
{"id": "C13", "title": "conjugate_bls preserves the physics of every record", "statement": "After conjugate_bls on any set of rows, a selected record has its antennas swapped, its uvw negated, its visibility conjugated and moved to the conjugate polarization, and an unselected record is unchanged; applying it twice to the same rows restores antennas, uvw and visibilities.", "quantifier": "every object, every set of selected baseline-times", "why_tests_cant": "Polarization permutation and row selection interact; round trip must hold for every polarization axis that is closed under conjugation.", "anchors": ["src/pyuvdata/uvdata/uvdata.py:conjugate_bls", "src/pyuvdata/utils/pol.py:reorder_conj_pols"]}
{"id": "C14", "title": "antpair2ind returns exactly the rows of an antenna pair", "statement": "antpair2ind(i, j) returns the increasing list of all rows whose antennas are (i, j), None when there are none; with ordered=False it covers the rows of (i, j) followed by those of (j, i).", "quantifier": "every object whose rectangularity flags are truthful, every pair, ordered True or False", "why_tests_cant": "Rectangular data uses arithmetic slices instead of a search; agreement with the search for every shape cannot be sampled.", "anchors": ["src/pyuvdata/uvdata/uvdata.py:antpair2ind", "src/pyuvdata/uvdata/uvdata.py:get_antpairs", "src/pyuvdata/utils/tools.py:slicify"]}
{"id": "C15", "title": "Index caches never serve stale answers", "statement": "After any history of queries and of assignments to ant_1_array, ant_2_array and polarization_array, a cached antpair2ind or _key2inds lookup returns what a fresh computation on the current arrays would return.", "quantifier": "every finite sequence of queries and array assignments from any initial object", "why_tests_cant": "Staleness depends on the interleaving of writes and lookups.", "anchors": ["src/pyuvdata/uvdata/uvdata.py:UVData._clear_antpair2ind_cache", "src/pyuvdata/uvdata/uvdata.py:UVData._clear_key2ind_cache", "src/pyuvdata/uvdata/uvdata.py:antpair2ind", "src/pyuvdata/uvdata/uvdata.py:_key2inds"]}
{"id": "C16", "title": "Polarization names and numbers are inverse to each other and conjugation is an involution", "statement": "For every polarization number n in the table and every x_orientation, polstr2num(polnum2str(n)) = n; conj_pol applied twice is the identity and conj_pol commutes with the number/name translation; the same for Jones names.", "quantifier": "every entry of the polarization and Jones tables, every recognised x_orientation", "why_tests_cant": "Tables interact through case folding and x/y renaming; the statement is about the whole table and all orientations.", "anchors": ["src/pyuvdata/utils/pol.py:polstr2num", "src/pyuvdata/utils/pol.py:polnum2str", "src/pyuvdata/utils/pol.py:conj_pol", "src/pyuvdata/utils/pol.py:jstr2num", "src/pyuvdata/utils/pol.py:jnum2str"]}
{"id": "C17", "title": "reorder_conj_pols pairs each polarization with its conjugate", "statement": "reorder_conj_pols(pols) succeeds exactly when every polarization's conjugate is in the list; the returned order is a self-inverse permutation o with pols[o[i]] = conj(pols[i]).", "quantifier": "every list of distinct polarization numbers", "why_tests_cant": "Quantifies over all subsets and orders of the polarization table.", "anchors": ["src/pyuvdata/utils/pol.py:reorder_conj_pols"]}
{"id": "C18", "title": "reorder_pols keeps visibilities attached to their polarization", "statement": "After reorder_pols each polarization's data, flags and nsamples are the ones it had before, and the polarization axis is in the requested (AIPS or CASA) order.", "quantifier": "every polarization axis and every requested order", "why_tests_cant": "All permutations of all axes.", "anchors": ["src/pyuvdata/uvdata/uvdata.py:reorder_pols", "src/pyuvdata/utils/pol.py:determine_pol_order"]}
{"id": "C19", "title": "New phase-center IDs are always fresh", "statement": "generate_new_phase_center_id never returns an ID that is in the existing catalog or in the reserved list (except that an entry may keep its own ID); when the caller gives none, an ID is always found, it is never negative and at most the number of IDs in use, and an old ID that is not reserved is kept.", "quantifier": "every catalog, every old ID and every reserved-ID list", "why_tests_cant": "Freshness must hold for any set of IDs in use.", "anchors": ["src/pyuvdata/utils/phase_center_catalog.py:generate_new_phase_center_id"]}
{"id": "C20", "title": "Phase-center bookkeeping stays consistent over any history of catalog operations", "statement": "After any sequence of add, rename, update-ID, split, merge and clear-unused operations that return normally, every row's phase-center ID is a key of the catalog, IDs are unique keys and Nphase equals the number of catalog entries.", "quantifier": "every finite sequence of the modelled catalog operations with arbitrary arguments", "why_tests_cant": "Histories are unbounded.", "anchors": ["src/pyuvdata/uvdata/uvdata.py:_add_phase_center", "src/pyuvdata/uvdata/uvdata.py:rename_phase_center", "src/pyuvdata/uvdata/uvdata.py:split_phase_center", "src/pyuvdata/uvdata/uvdata.py:merge_phase_centers", "src/pyuvdata/uvdata/uvdata.py:_update_phase_center_id", "src/pyuvdata/uvdata/uvdata.py:_clear_unused_phase_centers"]}
{"id": "C21", "title": "Merging two catalogs never changes what a row points at", "statement": "When the catalogs of two objects are consolidated before combining them, every row of either object still refers to an entry with the same contents (name up to the documented renaming) as before, and after consolidation equal IDs in the two objects mean equal entries.", "quantifier": "every pair of consistent objects and every ignore_name setting", "why_tests_cant": "Depends on arbitrary ID clashes between catalogs.", "anchors": ["src/pyuvdata/uvdata/uvdata.py:_consolidate_phase_center_catalogs", "src/pyuvdata/utils/phase_center_catalog.py:look_in_catalog"]}
{"id": "C22", "title": "The channel ordering helper returns a permutation that sorts as requested", "statement": "_sort_freq_helper returns an index array that is a permutation of all channels; with spw ordering the spectral windows come out in the requested order and channels within each window in the requested frequency order.", "quantifier": "every frequency axis with any assignment of channels to spectral windows, every spw_order/channel_order option", "why_tests_cant": "The sort is built from stable partial sorts per window; correctness depends on arbitrary interleavings of windows.", "anchors": ["src/pyuvdata/utils/frequency.py:_sort_freq_helper", "src/pyuvdata/uvdata/uvdata.py:reorder_freqs"]}
{"id": "C23", "title": "Flexible-polarization conversion loses nothing", "statement": "Converting an object to flexible-polarization form and back returns every visibility, flag and nsample to the frequency and polarization it had.", "quantifier": "every object without flex-pol, any number of polarizations, windows and channels", "why_tests_cant": "Index gymnastics (Fortran-order reshapes) must hold for every axis size.", "anchors": ["src/pyuvdata/uvdata/uvdata.py:_make_flex_pol", "src/pyuvdata/uvdata/uvdata.py:convert_to_flex_pol", "src/pyuvdata/uvdata/uvdata.py:remove_flex_pol"]}
{"id": "C24", "title": "Redundant groups partition the baselines", "statement": "find_clusters with strict=True and find_clusters_grid put every input location in exactly one group; find_clusters without strict covers every location.", "quantifier": "every finite list of distinct IDs and vectors, every tolerance", "why_tests_cant": "Neighbour graphs are arbitrary; a location in two groups or none appears only for special geometries.", "anchors": ["src/pyuvdata/utils/redundancy.py:find_clusters", "src/pyuvdata/utils/redundancy.py:find_clusters_grid", "src/pyuvdata/utils/redundancy.py:_find_cliques"]}
{"id": "C25", "title": "Members of a redundant group really are redundant", "statement": "Any two baselines that find_clusters_grid puts in one group, after conjugation, differ by less than a bound proportional to the tolerance; with the strict clustering algorithm every two members of a group are within the tolerance.", "quantifier": "every list of baseline vectors and tolerance", "why_tests_cant": "Geometric chains can drift; needs a bound valid for all inputs.", "anchors": ["src/pyuvdata/utils/redundancy.py:find_clusters", "src/pyuvdata/utils/redundancy.py:find_clusters_grid"]}
{"id": "C26", "title": "Applying flags only ever adds flags and adds exactly the requested ones", "statement": "After apply_uvflag every previously set flag is still set, every cell whose matching UVFlag cell is set is set, and no other cell changes (missing antennas or baselines are flagged only with flag_missing).", "quantifier": "every visibility object and every UVFlag object with matching axes", "why_tests_cant": "Quantifies over all flag patterns and axis orders.", "anchors": ["src/pyuvdata/utils/apply_uvflag.py:apply_uvflag"]}
{"id": "C27", "title": "Boolean collapse methods mean what they say", "statement": "or_collapse returns True at a cell exactly when some contributing entry is True, and_collapse exactly when all are; collapsing in two stages over disjoint groups equals collapsing once.", "quantifier": "every boolean array and every partition of the collapsed axis into non-empty groups", "why_tests_cant": "All sizes and patterns.", "anchors": ["src/pyuvdata/utils/array_collapse.py:or_collapse", "src/pyuvdata/utils/array_collapse.py:and_collapse"]}
{"id": "C28", "title": "mean_collapse is the weighted mean with zero-weight entries ignored", "statement": "mean_collapse returns sum(w x)/sum(w) over the entries with finite value or non-zero weight; entries of zero weight do not influence the result; a cell with zero total weight becomes infinite rather than NaN.", "quantifier": "every data and weight array including infinite data values", "why_tests_cant": "Special-value handling must hold for every mixture of weights and infinities.", "anchors": ["src/pyuvdata/utils/array_collapse.py:mean_collapse"]}
{"id": "C29", "title": "Broadcasting a waterfall to baselines puts each flag at its own time", "statement": "After to_baseline on a waterfall object, every row of the result carries the flags of the waterfall time equal to the row's time, and rows at times absent from the waterfall are unflagged.", "quantifier": "every waterfall object and every target baseline-time axis", "why_tests_cant": "Depends on the time order stored in the object, which histories of additions can change.", "anchors": ["src/pyuvdata/uvflag/uvflag.py:to_baseline", "src/pyuvdata/uvflag/uvflag.py:__add__"]}
{"id": "C30", "title": "Collapsing to a waterfall with OR flags exactly the times with a flagged baseline", "statement": "to_waterfall with method 'or' flags (t, f, p) exactly when some baseline has (t, f, p) flagged; with 'and' exactly when all baselines present at t do; times come out sorted and unique with their LSTs.", "quantifier": "every baseline-type flag object", "why_tests_cant": "All baseline-time layouts, ragged ones included.", "anchors": ["src/pyuvdata/uvflag/uvflag.py:to_waterfall"]}
{"id": "C31", "title": "Adding two objects keeps every visibility attached to its own labels", "statement": "In the sum of two UVData objects, the datum stored at (baseline, time, frequency, polarization) is the datum one of the inputs stored under those labels, and cells covered by neither input are zero and flagged.", "quantifier": "every pair of compatible objects with arbitrary overlap on each axis", "why_tests_cant": "Overlap patterns on three axes are unbounded; misplacement only occurs for particular interleavings.", "anchors": ["src/pyuvdata/uvdata/uvdata.py:__add__"]}
{"id": "C32", "title": "Adding objects never overwrites valid data", "statement": "Adding two UVData objects raises if they share a (baseline-time, frequency, polarization) cell, unless all of the first object's shared cells are zero and flagged; if only the second's are, the error says to swap them. A sum never loses a visibility of the first object that is non-zero or unflagged.", "quantifier": "every pair of objects", "why_tests_cant": "All overlap patterns.", "anchors": ["src/pyuvdata/uvdata/uvdata.py:__add__"]}
{"id": "C33", "title": "fast_concat is plain concatenation along the chosen axis", "statement": "fast_concat along an axis returns an object whose axis labels and data are the concatenation, in argument order, of those of the inputs; the k-th block of the result is exactly the k-th input and the per-axis counts are right; incompatible inputs raise.", "quantifier": "every list of objects and every axis", "why_tests_cant": "Any number of objects and sizes.", "anchors": ["src/pyuvdata/uvdata/uvdata.py:fast_concat"]}
{"id": "C34", "title": "select keeps exactly the rows, channels and polarizations that satisfy every criterion", "statement": "select keeps a baseline-time row exactly when it meets all given row criteria (antennas, baselines, times, LSTs, indices, phase centers), in original order, with every attribute of the kept rows unchanged; likewise channels and polarizations; it raises rather than returning an empty object.", "quantifier": "every object and every combination of selection keywords", "why_tests_cant": "Combinations of criteria are intersected pairwise through sets; ordering and completeness must hold for all.", "anchors": ["src/pyuvdata/uvdata/uvdata.py:_select_preprocess", "src/pyuvdata/uvdata/uvdata.py:_select_by_index", "src/pyuvdata/uvdata/uvdata.py:select"]}
{"id": "C35", "title": "Selections commute and compose", "statement": "Selecting by one row criterion and then by another gives the same object as the other order and as selecting by both at once, provided none of them raises.", "quantifier": "every object and every two row criteria", "why_tests_cant": "Law over all pairs.", "anchors": ["src/pyuvdata/uvdata/uvdata.py:select"]}
{"id": "C36", "title": "Time selections pick exactly the matching times", "statement": "The time selector returns exactly the indices whose time is within tolerance of a requested time, or inside the closed time_range, or inside the LST range with wrap-around through 2π; it raises when a requested time matches nothing and when more than one selector is given.", "quantifier": "every time/LST array and every request", "why_tests_cant": "All wrap-around configurations.", "anchors": ["src/pyuvdata/utils/times.py:_select_times_helper"]}
{"id": "C37", "title": "Upsampling in time conserves every integration", "statement": "upsample_in_time replaces each integration longer than max_int_time by n copies that tile the same interval (equal lengths, contiguous, same centre of mass, lengths summing to the original) and keeps every other integration.", "quantifier": "every set of integration times and every max_int_time", "why_tests_cant": "Even/odd sample counts and tolerances.", "anchors": ["src/pyuvdata/uvdata/uvdata.py:upsample_in_time"]}
{"id": "C38", "title": "Downsampling in time conserves integration time and averages what it says", "statement": "downsample_in_time groups each baseline's integrations into consecutive windows covering all of them when keep_ragged is True (and all but an incomplete tail otherwise), output integration times sum to the input's, output rows are counted correctly in advance and each flag is set exactly when all inputs in the window are flagged.", "quantifier": "every sequence of integration times per baseline, both modes", "why_tests_cant": "All window boundaries; the code counts rows in one loop and fills them in another.", "anchors": ["src/pyuvdata/uvdata/uvdata.py:downsample_in_time"]}
{"id": "C39", "title": "Frequency averaging accounts for every channel of every window", "statement": "frequency_average combines consecutive channels of one spectral window only, every channel contributes to exactly one output channel (except a dropped ragged tail when keep_ragged is False), channel widths add up, the output is flagged exactly when all inputs are (any with propagate_flags), and data are weighted means of unflagged inputs.", "quantifier": "every frequency axis, window assignment, n_chan_to_avg and flag pattern", "why_tests_cant": "Window/remainder combinations and flag patterns.", "anchors": ["src/pyuvdata/uvdata/uvdata.py:frequency_average"]}
{"id": "C40", "title": "History merging appends exactly the words that are missing, in order", "statement": "When the histories of two objects are combined, the text appended is exactly the sequence of words of the second history that do not occur as whole words in the first, in their original order; nothing is appended when the histories agree up to white space or when every word already occurs.", "quantifier": "every pair of history strings", "why_tests_cant": "The loop deletes from the list it iterates over; only an invariant covers all texts.", "anchors": ["src/pyuvdata/utils/history.py:_combine_history_addition", "src/pyuvdata/utils/history.py:_check_histories"]}
{"id": "C41", "title": "The lists of antenna pairs and antennas are exactly those in the data", "statement": "get_antpairs returns every (ant1, ant2) pair that occurs in the data exactly once and no other pair; get_ants returns every antenna that occurs in either position exactly once, in increasing order, and no other.", "quantifier": "every object whose baseline numbers come from its antenna arrays and whose rectangularity attributes are truthful", "why_tests_cant": "Rectangular objects read a strided subset of the rows and decode baseline numbers instead of looking at the antennas.", "anchors": ["src/pyuvdata/uvdata/uvdata.py:get_antpairs", "src/pyuvdata/uvdata/uvdata.py:get_ants", "src/pyuvdata/uvdata/uvdata.py:get_baseline_nums"]}
{"id": "C42", "title": "get_data returns exactly the visibilities that the key names", "statement": "get_data of an antenna pair and a polarization returns, in the row order of the data, the stored values of all rows of that pair at that polarization, followed by the complex conjugates of the values that rows of the reversed pair hold at the conjugate polarization; get_data of a baseline number, of a pair alone, or of a polarization alone returns the corresponding set; if nothing matches it raises.  No value of another baseline or polarization is ever returned.", "quantifier": "every object with consistent antenna, baseline and layout attributes, every key, every data array and every conjugation function", "why_tests_cant": "The path goes through six helpers that pass slices, arrays and None between them; which of the four orientation cases applies depends on the data.", "anchors": ["src/pyuvdata/uvdata/uvdata.py:get_data", "src/pyuvdata/uvdata/uvdata.py:_key2inds", "src/pyuvdata/uvdata/uvdata.py:_smart_slicing", "src/pyuvdata/uvdata/uvdata.py:antpair2ind"]}
{"id": "C43", "title": "The automatically assigned phase-center ID is the lowest unused one", "statement": "When no ID is asked for, a new phase center gets the lowest non-negative ID that is not in use.", "quantifier": "every catalog and reserved list", "why_tests_cant": "The ID is taken from a set with set.pop, which returns an arbitrary element; tests use few IDs, for which the lowest happens to come out.", "anchors": ["src/pyuvdata/utils/phase_center_catalog.py:generate_new_phase_center_id", "src/pyuvdata/uvdata/uvdata.py:_add_phase_center"]}
{"id": "C44", "title": "Catalog entries obey the documented rules", "statement": "An entry that is accepted into the phase-center catalog has an allowed type, coordinates and a frame; proper motions come in pairs and only for sidereal sources; times are present exactly for ephemerides, with one value of every coordinate per time; drift scans and unprojected data are in the altaz frame and unprojected data point at the zenith.  An entry that obeys these rules is accepted unchanged.", "quantifier": "every combination of arguments", "why_tests_cant": "Eleven interacting checks and two defaulting steps over ten optional arguments.", "anchors": ["src/pyuvdata/utils/phase_center_catalog.py:generate_phase_center_cat_entry"]}
{"id": "C45", "title": "Splitting a phase center moves exactly the selected rows", "statement": "split_phase_center moves exactly the selected rows of the named phase center to a new catalog entry with the new ID, the new name (by default the old name) and the same coordinates; every other row keeps its ID and its entry.", "quantifier": "every consistent object, row selection, name and ID", "why_tests_cant": "Three different code paths depending on how many rows are selected, and the new entry goes through a duplicate search that may return an old ID.", "anchors": ["src/pyuvdata/uvdata/uvdata.py:split_phase_center", "src/pyuvdata/uvdata/uvdata.py:_add_phase_center", "src/pyuvdata/uvdata/uvdata.py:_update_phase_center_id"]}
{"id": "C46", "title": "Merging phase centers relabels exactly the merged rows", "statement": "After merge_phase_centers exactly the rows of the merged phase centers carry the first ID, every other row keeps its ID, the other merged entries are removed and no other entry changes; unless forced, entries that do not match within tolerance are refused.", "quantifier": "every consistent object and list of names and IDs in which no entry is named twice", "why_tests_cant": "Depends on names resolving to several IDs and on tolerance comparison of entries.", "anchors": ["src/pyuvdata/uvdata/uvdata.py:merge_phase_centers", "src/pyuvdata/utils/phase_center_catalog.py:look_in_catalog"]}
{"id": "C47", "title": "Reordering channels moves each channel as a whole", "statement": "reorder_freqs rearranges the channels so that frequency, width, window number, data, flags, sample counts and equalization coefficients of a channel stay together; the list of windows becomes the list of windows in order of first appearance and each window keeps its polarization.", "quantifier": "every consistent frequency axis and every combination of ordering options", "why_tests_cant": "Eight arrays are permuted separately and the per-window arrays by a derived permutation; only a statement for all permutations excludes mislabelling.", "anchors": ["src/pyuvdata/uvdata/uvdata.py:reorder_freqs", "src/pyuvdata/utils/frequency.py:_sort_freq_helper"]}
{"id": "C48", "title": "Broadcasting a waterfall and collapsing it again gives it back", "statement": "A waterfall flag object broadcast to antennas and collapsed with 'or' or 'and' is the original object; broadcast to baselines and collapsed, it has at every time of the data the flags it had before.", "quantifier": "every waterfall, antenna list and baseline-time axis", "why_tests_cant": "Two conversions with different indexing have to undo each other for all shapes.", "anchors": ["src/pyuvdata/uvflag/uvflag.py:to_antenna", "src/pyuvdata/uvflag/uvflag.py:to_baseline", "src/pyuvdata/uvflag/uvflag.py:to_waterfall"]}
{"id": "C49", "title": "Conversion between flags and metrics loses nothing and weights zero out exactly the dead rows and channels", "statement": "to_flag flags exactly the values that reach the threshold; flags turned into a metric and back are the same flags for every threshold in (0, 1], and for no other threshold in general; with convert_wgts a weight is 0 exactly if the channel is flagged at all times of the baseline or the time is flagged in all channels, and 1 otherwise.", "quantifier": "every flag array, metric array and threshold", "why_tests_cant": "The weights are updated in place, pair by pair, through row lookups; all flag patterns matter.", "anchors": ["src/pyuvdata/uvflag/uvflag.py:to_flag", "src/pyuvdata/uvflag/uvflag.py:to_metric", "src/pyuvdata/uvflag/uvflag.py:and_rows_cols"]}
{"id": "C50", "title": "flags2waterfall is zero exactly where nothing is flagged and one exactly where everything is", "statement": "Every value of flags2waterfall is between 0 and 1; it is 0 exactly if no baseline (and polarization) is flagged at that time and channel and 1 exactly if all are.", "quantifier": "every visibility object and flag array", "why_tests_cant": "Baselines may be missing at some times, so the number of averaged rows varies.", "anchors": ["src/pyuvdata/uvflag/uvflag.py:flags2waterfall"]}
{"id": "C51", "title": "Combining flags with | flags exactly what either object flags", "statement": "The result of | has a flag exactly where one of the operands has one; the operation is commutative, associative and idempotent on flags, and flags are only combined between samples with the same labels.", "quantifier": "every pair of flag objects", "why_tests_cant": "Needs all flag patterns and all pairs of label arrays.", "anchors": ["src/pyuvdata/uvflag/uvflag.py:__or__"]}
{"id": "C52", "title": "Concatenating flag objects keeps every flag under its labels", "statement": "In the sum of two waterfall flag objects along time, frequency or polarization, the flags stored under a label triple are exactly those that one of the operands stored under it.", "quantifier": "every pair of waterfalls and every axis", "why_tests_cant": "Three axes with different array axes in concatenate; all sizes.", "anchors": ["src/pyuvdata/uvflag/uvflag.py:__add__"]}
{"id": "C53", "title": "Of two opposite baseline vectors exactly one is reversed", "statement": "When redundancies are looked for with conjugates, of a vector and its opposite exactly one is listed as conjugated unless all its components are within the tolerance of zero, in which case neither is; the two come out oriented the same way.", "quantifier": "every vector and every non-negative tolerance", "why_tests_cant": "The decision is a three-level case split with tolerances; all sign patterns and near-zero components matter.", "anchors": ["src/pyuvdata/utils/redundancy.py:get_baseline_redundancies"]}
{"id": "C54", "title": "Antenna redundancy groups contain every pair of antennas once, in one direction", "statement": "Decoded to antenna pairs, the groups of get_antenna_redundancies contain, for any two different antennas, exactly one of the two directions and that exactly once; autos are contained exactly if asked for; the vectors of two pairs of one group, taken in the listed direction, differ by at most 3/4 of the tolerance in every coordinate.", "quantifier": "every list of distinct antenna numbers, all positions, every positive tolerance", "why_tests_cant": "Combines pair enumeration, numbering, orientation, clustering and flipping of baseline numbers; a wrong flip shows only for special geometries.", "anchors": ["src/pyuvdata/utils/redundancy.py:get_antenna_redundancies", "src/pyuvdata/utils/redundancy.py:find_clusters_grid"]}
{"id": "C55", "title": "Inflating by redundancy copies the data of one baseline to its whole group", "statement": "After inflate_by_redundancy each baseline of a group with a baseline in the data has, in order, the rows of the first baseline of the group that is in the data, no other rows exist, the missing groups are exactly those without any baseline in the data, and baselines that had data keep their own.", "quantifier": "every baseline-time axis and every list of groups", "why_tests_cant": "The rows are written through running offsets into preallocated arrays; all group patterns matter.", "anchors": ["src/pyuvdata/uvdata/uvdata.py:inflate_by_redundancy"]}
{"id": "C56", "title": "The rows of a sum are sorted by time and baseline", "statement": "When the second object brings new baseline-times, the rows of the sum of two UVData objects are sorted by time and baseline number.", "quantifier": "every pair of objects", "why_tests_cant": "Depends on the relative order of the shared rows of the two inputs.", "anchors": ["src/pyuvdata/uvdata/uvdata.py:__add__"]}
{"id": "C57", "title": "Rows put together by fast_concat keep their phase centers", "statement": "After fast_concat along the baseline-time axis, the phase center ID of every row denotes, in the catalog of the result, the phase center that row had in its own object.", "quantifier": "any number of objects with any catalogs", "why_tests_cant": "The catalogs are merged pairwise in a tree that renumbers the left object of each pair; whether renumbering reaches all rows depends on the number of objects and on every ID clash.", "anchors": ["src/pyuvdata/uvdata/uvdata.py:fast_concat", "src/pyuvdata/uvdata/uvdata.py:_consolidate_phase_center_catalogs"]}
{"id": "C58", "title": "Averaging the pieces of an upsampled integration restores it", "statement": "If upsample_in_time cuts an integration into pieces and these pieces are averaged again by downsample_in_time, the resulting row has the time, integration time, flags, numbers of samples and phase center of the original, and its visibilities wherever the number of samples is not zero (everywhere in summing_correlator_mode).", "quantifier": "every integration, every limit, even and odd numbers of pieces, both modes", "why_tests_cant": "Centre times of even and odd numbers of pieces, weights and flags all have to cancel for every input.", "anchors": ["src/pyuvdata/uvdata/uvdata.py:upsample_in_time", "src/pyuvdata/uvdata/uvdata.py:downsample_in_time"]}
{"id": "C59", "title": "Removing flex-pol without combining windows puts data under their polarization", "statement": "remove_flex_pol with combine_spws=False (or when windows cannot be combined) keeps windows and channels; the polarization axis lists in increasing order exactly the polarizations of the windows; each channel's visibilities, flags and numbers of samples are found under the polarization of its window, and the other polarizations of that channel are empty and flagged.", "quantifier": "every flex-pol object, any number of windows and polarizations, windows in any order", "why_tests_cant": "Windows are written one after another through boolean masks and positions in a sorted axis; all combinations of window order and polarization have to agree.", "anchors": ["src/pyuvdata/uvdata/uvdata.py:remove_flex_pol"]}
{"id": "C60", "title": "Making an object flex-pol loses no unflagged data", "statement": "Where every window has at most one polarization with data that are not flagged, making the object flex-pol keeps every visibility that is not flagged in its channel, under a window that carries its polarization; undoing it without combining windows gives it back at its polarization and everything else is flagged. Otherwise nothing is changed.", "quantifier": "every object and every pattern of flags", "why_tests_cant": "Depends on all patterns of flags over windows, channels and times, including windows that are flagged completely.", "anchors": ["src/pyuvdata/uvdata/uvdata.py:_make_flex_pol", "src/pyuvdata/uvdata/uvdata.py:remove_flex_pol"]}
{"id": "C61", "title": "Combining windows while removing flex-pol keeps every visibility", "statement": "remove_flex_pol with combine_spws=True: if no two windows share channels and polarization and every window has a partner with the same channels for each polarization, every visibility, flag and number of samples of the input is found in the result exactly once, at the same frequency, channel width and polarization, and channels of one window stay in one window; nothing is invented. Two windows with the same channels and the same polarization are an error if there are several polarizations; without a partner for each polarization the result is that of combine_spws=False.", "quantifier": "every flex-pol object whose windows have distinct channel frequencies, windows, channels and polarizations in any order", "why_tests_cant": "Whether sorting is needed is decided by two heuristic checks before an in-place reshape; a case the checks miss would silently permute data over frequency and polarization.", "anchors": ["src/pyuvdata/uvdata/uvdata.py:remove_flex_pol", "src/pyuvdata/uvdata/uvdata.py:reorder_freqs", "src/pyuvdata/utils/frequency.py:_sort_freq_helper"]}
{"id": "C62", "title": "Calibration uses the solutions of the right antennas, feeds, frequency and time", "statement": "When uvcalibrate returns, every visibility whose two antennas have solutions is multiplied by (gain_convention 'multiply') or divided by ('divide', and the other way round with undo) the gain of its first antenna times the conjugate of that of its second one (or the reverse with flip_gain_conj), the antennas being matched by name, the Jones term by the direction of the feed (east, north, circular; by x and y if the data have no feed orientation), the entry of the frequency axis by the channel's frequency and the entry of the time axis by the row's time; then scaled once for the polarization conventions. Flagged solutions and gains close to zero are not applied and flag the data if prop_flags is set.", "quantifier": "every data and calibration object, all antenna numberings and names, orientations, polarizations, time and frequency axes, keywords", "why_tests_cant": "The matching goes through five lookups and numpy broadcasting by position; a wrong pairing gives plausible numbers and shows only for particular combinations of orders and orientations.", "anchors": ["src/pyuvdata/utils/uvcalibrate.py:uvcalibrate", "src/pyuvdata/uvcal/uvcal.py:get_gains", "src/pyuvdata/uvcal/uvcal.py:ant2ind", "src/pyuvdata/uvcal/uvcal.py:select"]}
{"id": "C63", "title": "Undoing a calibration gives the visibilities back", "statement": "If uvcalibrate succeeds, calling it again with undo=True and otherwise the same arguments succeeds and gives back every visibility, leaves the flags of the first call, sets the units to 'uncalib' and clears the polarization convention.", "quantifier": "every data and calibration object without repeated labels, all keywords, gains that are not zero where they are applied", "why_tests_cant": "Needs the conventions found from four possible sources to be found again from the changed object, and multiplication and division to cancel for all gains, including the ones that are skipped.", "anchors": ["src/pyuvdata/utils/uvcalibrate.py:uvcalibrate", "src/pyuvdata/utils/uvcalibrate.py:_get_pol_conventions", "src/pyuvdata/utils/uvcalibrate.py:_apply_pol_convention_corrections"]}
{"id": "C64", "title": "Calibration never removes flags and flags what has no solution", "statement": "When uvcalibrate returns, no flag was removed; visibilities of an antenna without solutions are flagged and otherwise only change convention; with prop_flags=False all other flags are unchanged; labels of all axes are unchanged and the units and convention are those of the calibration (or cleared when undoing).", "quantifier": "every data and calibration object without repeated labels, all keywords", "why_tests_cant": "Flags are written per baseline and polarization through index arrays; a pass that touches other rows would show only for special layouts.", "anchors": ["src/pyuvdata/utils/uvcalibrate.py:uvcalibrate"]}
{"id": "C65", "title": "A calibration that fails leaves the data as they were", "statement": "If uvcalibrate raises an exception, the data object is unchanged.", "quantifier": "every data and calibration object, all keywords", "why_tests_cant": "Exceptions inside the loop over baselines come after others have been calibrated in place.", "anchors": ["src/pyuvdata/utils/uvcalibrate.py:uvcalibrate"]}
{"id": "C66", "title": "Local east-north-up coordinates and rotated coordinates can be undone and mean what they say", "statement": "ECEF_from_ENU undoes ENU_from_ECEF and, where the points are accepted, the other way round; distances between points are kept; a point above the array centre has only an up coordinate, equal to its height; moving the centre's longitude moves along east and moving its latitude along north. ECEF_from_rotECEF and rotECEF_from_ECEF undo each other and change only the longitude.", "quantifier": "every array centre, every set of points, Earth and every lunar ellipsoid", "why_tests_cant": "An identity between products of sines and cosines for all centres; tests evaluate a few sites, where a wrong sign can be invisible.", "anchors": ["src/pyuvdata/utils/coordinates.py:ENU_from_ECEF", "src/pyuvdata/utils/coordinates.py:ECEF_from_ENU", "src/pyuvdata/utils/coordinates.pyx:_ENU_from_ECEF", "src/pyuvdata/utils/coordinates.pyx:_ECEF_from_ENU", "src/pyuvdata/utils/coordinates.py:rotECEF_from_ECEF", "src/pyuvdata/utils/coordinates.py:ECEF_from_rotECEF"]}
{"id": "C67", "title": "Latitude, longitude and altitude survive the conversion to Cartesian coordinates", "statement": "XYZ_from_LatLonAlt gives the point at the given altitude along the normal of the ellipsoid; LatLonAlt_from_XYZ of the result gives latitude, longitude and altitude back.", "quantifier": "every latitude, longitude and altitude of places a telescope can be, Earth and every lunar ellipsoid", "why_tests_cant": "The inverse is a one-step approximation whose error has to be bounded for all latitudes and altitudes; the poles are singular.", "anchors": ["src/pyuvdata/utils/coordinates.py:XYZ_from_LatLonAlt", "src/pyuvdata/utils/coordinates.py:LatLonAlt_from_XYZ", "src/pyuvdata/utils/coordinates.pyx:_lla_from_xyz", "src/pyuvdata/utils/coordinates.pyx:_xyz_from_latlonalt"]}
{"id": "C68", "title": "Rotations about two axes are the two rotations one after the other", "statement": "Rotating an array of vectors about two axes in one call gives each vector rotated about the first axis by its first angle and then about the second axis by its second angle, for every choice of axes, for one angle or one per row, and also where the code takes a shortcut because angles are missing or zero.", "quantifier": "all vectors, angles, pairs of axes and array shapes that numpy can combine", "why_tests_cant": "The combined matrix is filled through index tricks with a different arrangement for each handedness; all six pairs of axes and all angles would have to be tried.", "anchors": ["src/pyuvdata/utils/phasing.py:_rotate_one_axis", "src/pyuvdata/utils/phasing.py:_rotate_two_axis", "src/pyuvdata/utils/phasing.py:_rotate_matmul_wrapper"]}
{"id": "C69", "title": "Baseline coordinates calculated from antenna positions are projections on the source", "statement": "calc_uvw with use_ant_pos=True gives each row the difference of the positions of its second and first antenna projected on the directions toward, east and north of the row's source at the row's sidereal time, turned by the row's frame position angle; with to_enu=True it gives the difference of the local east, north and up coordinates of the antennas.", "quantifier": "all antenna positions and numbers, all rows, source positions, times and position angles", "why_tests_cant": "Rows that share a rotation are found by comparing neighbours and looked up through a running sum; mistakes show only for particular sequences of sources.", "anchors": ["src/pyuvdata/utils/phasing.py:calc_uvw"]}
{"id": "C70", "title": "Baseline coordinates can be moved from source to source", "statement": "calc_uvw with use_ant_pos=False turns the projection of a baseline on the old source into the projection of the same baseline on the new one, to and from local coordinates as well; hence moving there and back restores the coordinates, the way taken does not matter, lengths are kept, and the result agrees with the one from antenna positions.", "quantifier": "all coordinates, old and new source positions, times and position angles", "why_tests_cant": "Five rotations in two special cases have to cancel for all angles.", "anchors": ["src/pyuvdata/utils/phasing.py:calc_uvw"]}
{"id": "C71", "title": "Phasing never changes what the correlator measured", "statement": "phase, unproject_phase, set_uvws_from_antenna_positions and update_antenna_positions (with update_vis) multiply each visibility by exp(-2 pi i f (w' - w) / c), where w and w' are the path taken out before and after: the third baseline coordinate, or zero for rows of unprojected phase centers. So the visibility with the path put back is the same after any sequence of them; magnitudes never change; rows that return to the same path have their old visibilities; two ways to the same phase center give the same data.", "quantifier": "every data object, every sequence of calls with any sources, selections and keywords", "why_tests_cant": "The factor must match the coordinates written and the kind of phase center of each row for every history and every mix of rows; tests compare a few histories on one data set.", "anchors": ["src/pyuvdata/uvdata/uvdata.py:phase", "src/pyuvdata/uvdata/uvdata.py:unproject_phase", "src/pyuvdata/uvdata/uvdata.py:_apply_w_proj", "src/pyuvdata/uvdata/uvdata.py:set_uvws_from_antenna_positions", "src/pyuvdata/uvdata/uvdata.py:update_antenna_positions", "src/pyuvdata/uvdata/uvdata.py:_phase_dict_helper"]}
{"id": "C72", "title": "Phasing points the selected rows at the source and leaves the others alone", "statement": "When phase returns, each selected row belongs to a catalog entry with the given name that is equivalent to the source asked for, has that source's apparent position and frame position angle at the row's time, and has the baseline coordinates seen toward it (from antenna positions, or the same baseline as before with use_ant_pos=False). Rows that are not selected keep identifier, coordinates, position, data and catalog entry.", "quantifier": "every data object, every source description, selection mask and keyword", "why_tests_cant": "The catalog is shared by all rows and edited in place; which entry is found, updated or made depends on names, tolerances and what other rows use.", "anchors": ["src/pyuvdata/uvdata/uvdata.py:phase", "src/pyuvdata/uvdata/uvdata.py:_phase_dict_helper", "src/pyuvdata/uvdata/uvdata.py:_add_phase_center", "src/pyuvdata/uvdata/uvdata.py:_clear_unused_phase_centers"]}
{"id": "C73", "title": "Unprojecting gives drift-scan data and undoes phasing", "statement": "When unproject_phase returns, each selected row that was projected belongs to an unprojected entry of the given name, has its source overhead at position angle zero, local east-north-up coordinates and no path taken out; other rows are unchanged. Phasing a drift scan and unprojecting it gives back coordinates, positions and visibilities.", "quantifier": "every data object, selection mask and keyword", "why_tests_cant": "Projected and unprojected rows may be mixed in any way, and the coordinates of all rows are recalculated at once.", "anchors": ["src/pyuvdata/uvdata/uvdata.py:unproject_phase", "src/pyuvdata/uvdata/uvdata.py:_check_for_cat_type"]}
{"id": "C74", "title": "Coordinates follow the antenna positions", "statement": "After set_uvws_from_antenna_positions every row has the coordinates of the baseline between its antennas seen toward its source; after update_antenna_positions every antenna stands at its new position and rows have the coordinates of the new baselines, whether positions are passed as a whole or the change is applied to the coordinates (delta_antpos); with update_vis the visibilities follow.", "quantifier": "every data object, all sets of new positions and keywords", "why_tests_cant": "Needs the difference of two projections to be the projection of the difference, for all sources, and the factor to be applied to the right rows with the right sign.", "anchors": ["src/pyuvdata/uvdata/uvdata.py:set_uvws_from_antenna_positions", "src/pyuvdata/uvdata/uvdata.py:update_antenna_positions"]}
{"id": "C75", "title": "The apparent position of each row is that of the source at the time of this row", "statement": "When calc_app_coords is called for many rows, the right ascension and declination returned for a row are those of the source at the time and LST of that row alone, whatever the other rows are; a drift-scan source stays at its azimuth and elevation, at all times; a drift-scan source at the zenith has the position of an unprojected one; after phase every selected row carries this position.", "quantifier": "any number of rows with any times and LSTs, in any order, any source", "why_tests_cant": "Only one calculation is made per distinct time and its result is spread over the rows, so the answer for one row could depend on every other row.", "anchors": ["src/pyuvdata/utils/phasing.py:calc_app_coords", "src/pyuvdata/uvdata/uvdata.py:phase"]}
{"id": "C76", "title": "The position angle of each row is that of its own position and time", "statement": "calc_frame_pos_angle returns for each row minus the position angle, in the reference frame, of a point offset to the north of the row's position seen from a point offset to the south, for every position on the sky, whatever the other rows are.", "quantifier": "any number of rows with any positions and times, any frame, any positive offset", "why_tests_cant": "Values are computed for a subset of the rows and filled in by equality; which rows are reached depends on all combinations of repeated positions and times.", "anchors": ["src/pyuvdata/utils/phasing.py:calc_frame_pos_angle"]}
{"id": "C77", "title": "Interpolated ephemerides go through their points and stay between them", "statement": "interpolate_ephem returns the value of the ephemeris at each of its times, does not depend on the order of the points, and with two or three points gives at each time in between a value between those of the neighbouring points, which is exact for motion linear in time; the direction found does not depend on full turns in the right ascension.", "quantifier": "every ephemeris with distinct times and every time", "why_tests_cant": "The cases (one point, up to three, more, times on and off the grid) and the order of points combine freely.", "anchors": ["src/pyuvdata/utils/phasing.py:interpolate_ephem"]}
{"id": "C78", "title": "Polar and Cartesian coordinates, and the old baseline calculation, can be undone", "statement": "polar2_to_cart3 returns the unit vector of a position and cart3_to_polar2 returns the position of any vector but zero, each undoing the other up to full turns and lengths; undo_old_uvw_calc undoes old_uvw_calc and the other way round, and old_uvw_calc returns the components of the baseline along east, north and the source.", "quantifier": "all positions and all vectors", "why_tests_cant": "Identities over all real angles.", "anchors": ["src/pyuvdata/utils/phasing.py:polar2_to_cart3", "src/pyuvdata/utils/phasing.py:cart3_to_polar2", "src/pyuvdata/utils/phasing.py:old_uvw_calc", "src/pyuvdata/utils/phasing.py:undo_old_uvw_calc"]}
{"id": "C79", "title": "Equal contents compare equal", "statement": "A parameter compares equal to another one of the same kind with the same contents, and an object compares equal to a copy of itself, with objects inside to any depth and for any choice of parameters allowed to differ; comparing does not raise.", "quantifier": "all values (arrays with NaN and infinite numbers, lists, strings, dictionaries nested to any depth), all tolerances and types", "why_tests_cant": "Many kinds of values go through different branches; unusual contents (empty, NaN, mixed dictionaries) are not in the tests.", "anchors": ["src/pyuvdata/parameter.py:UVParameter.__eq__", "src/pyuvdata/parameter.py:_param_dict_equal", "src/pyuvdata/uvbase.py:UVBase.__eq__"]}
{"id": "C80", "title": "What compares equal has the same shape and agrees within tolerances", "statement": "Two arrays compare equal exactly if they have the same shape and all elements agree within the tolerances of the parameter, NaN with NaN; two numbers likewise; strings that compare equal differ at most in whitespace; dictionaries that compare equal have the same keys up to case with agreeing values, at any depth; objects that compare equal agree in this way in every parameter that is not allowed to differ. Parameters of different classes are never equal; if one of two values is not set they are equal exactly if neither is, or the left one is marked so that this does not matter.", "quantifier": "all values, all tolerances, all nesting depths", "why_tests_cant": "Both directions of an equivalence over all values.", "anchors": ["src/pyuvdata/parameter.py:UVParameter.__eq__", "src/pyuvdata/parameter.py:_param_dict_equal", "src/pyuvdata/uvbase.py:UVBase.__eq__"]}
{"id": "C81", "title": "Comparing is symmetric, and equal values drift apart by no more than the tolerance per step", "statement": "Whether two parameters or objects are equal does not depend on which one stands on the left; along a chain of comparisons that succeed values move by at most the tolerance per comparison.", "quantifier": "all pairs of values, chains of any length", "why_tests_cant": "Asymmetry shows only next to the limits of the tolerance or for unusual pairs of types.", "anchors": ["src/pyuvdata/parameter.py:UVParameter.__eq__", "src/pyuvdata/uvbase.py:UVBase.__eq__"]}
{"id": "C82", "title": "A check passes exactly if all parameters are as declared", "statement": "check passes exactly if every required parameter (and, with check_extra, every other one that is set) has the name of its attribute, is set, has the shape its form says given the lengths of the axes, has the expected type and, if asked for, acceptable values; otherwise it raises.", "quantifier": "all objects, all forms, types and accepted values", "why_tests_cant": "An equivalence over all objects.", "anchors": ["src/pyuvdata/uvbase.py:UVBase.check", "src/pyuvdata/parameter.py:UVParameter.expected_shape", "src/pyuvdata/parameter.py:UVParameter.check_acceptability"]}
{"id": "C83", "title": "Reordering a calibration object moves labels and solutions together", "statement": "After any sequence of calls of reorder_antennas, reorder_freqs, reorder_times and reorder_jones that succeed, the same antennas, channels (with frequency, width, window and Jones component of the window), times (with LST, ranges, centres, integration times) and Jones components are there, each as often as before, and every solution, flag, quality and total quality is under the labels it was under before.", "quantifier": "all consistent objects (gain or delay, wide-band or not, with or without optional arrays), all arguments, call sequences of any length", "why_tests_cant": "Every array has to be moved along every axis it has; tests look at a few arrays after one call.", "anchors": ["src/pyuvdata/uvcal/uvcal.py:UVCal.reorder_antennas", "src/pyuvdata/uvcal/uvcal.py:UVCal.reorder_freqs", "src/pyuvdata/uvcal/uvcal.py:UVCal.reorder_times", "src/pyuvdata/uvcal/uvcal.py:UVCal.reorder_jones"]}
{"id": "C84", "title": "A calibration object comes out in the order asked for", "statement": "After a reordering antennas, Jones components, times, windows and channels are non-decreasing in the key asked for (number, name, time, frequency), non-increasing with a minus sign, exactly the given index array if one is given; windows of channels are blocks in the requested order. Words that are no order and index arrays that are not a permutation are refused for antennas, times and Jones components.", "quantifier": "all objects, all orders, any behaviour of the sort on equal keys", "why_tests_cant": "Equal keys and unstable sorting make the result undetermined.", "anchors": ["src/pyuvdata/uvcal/uvcal.py:UVCal.reorder_antennas", "src/pyuvdata/uvcal/uvcal.py:UVCal.reorder_freqs", "src/pyuvdata/uvcal/uvcal.py:UVCal.reorder_times", "src/pyuvdata/uvcal/uvcal.py:UVCal.reorder_jones"]}
{"id": "C85", "title": "Gains made from delays have the right phase", "statement": "convert_to_gain gives every antenna, time, Jones component and requested frequency the gain exp(-2 pi i delay frequency) for 'minus' and exp(+2 pi i delay frequency) for 'plus', keeps flags and qualities, and refuses exactly objects that are not delays or have several windows, unknown conventions, frequencies outside the range of the object and widths of another number.", "quantifier": "all delay objects, all frequencies", "why_tests_cant": "Phases are compared over all real delays and frequencies.", "anchors": ["src/pyuvdata/uvcal/uvcal.py:UVCal.convert_to_gain"]}
{"id": "C86", "title": "Going to one Jones component per window keeps every solution", "statement": "convert_to_flex_jones gives every pair of a window and a Jones component a window of its own with that component and the same channels, makes no other windows, keeps the numbers of the windows for the first component, and every solution, flag and quality stays with its antenna, time, channel and component. An object that has one component per window already is refused unchanged.", "quantifier": "all consistent objects, wide-band or not, any numbering of windows, any order in which Python lists a set", "why_tests_cant": "Window numbers are invented; whether they collide depends on all numbers in use.", "anchors": ["src/pyuvdata/uvcal/uvcal.py:UVCal.convert_to_flex_jones"]}
{"id": "C87", "title": "Undoing one Jones component per window keeps every solution", "statement": "remove_flex_jones leaves every solution under its antenna, time, channel and Jones component, fills what was not there with flagged blanks, puts windows with the same channels together exactly if then nothing is blank, and does not touch window numbers without combine_spws. Converting and removing gives back the object one began with.", "quantifier": "all consistent objects, all assignments of components to windows", "why_tests_cant": "Whether windows are put together depends on all windows.", "anchors": ["src/pyuvdata/uvcal/uvcal.py:UVCal.remove_flex_jones", "src/pyuvdata/uvcal/uvcal.py:UVCal.convert_to_flex_jones"]}
{"id": "C88", "title": "Reducing to one Jones component per window loses no data that is not flagged", "statement": "The conversion used when writing files (one component per window, chosen by flags) keeps every solution that is not flagged, invents none, and raises exactly if a window has solutions without flag for two components, leaving the object as it was.", "quantifier": "all consistent objects, all patterns of flags", "why_tests_cant": "The choice depends on the pattern of flags in all windows.", "anchors": ["src/pyuvdata/uvcal/uvcal.py:UVCal._make_flex_jones"]}
{"id": "C89", "title": "Overlapping time or frequency ranges are recognised", "statement": "The check for overlapping ranges says yes exactly if two of the ranges have more than an end point in common, in whatever order they are given, and refuses ranges that end before they start.", "quantifier": "all lists of ranges, any behaviour of the sort on equal starts", "why_tests_cant": "Only neighbours after sorting are compared; that this suffices is a statement about all lists.", "anchors": ["src/pyuvdata/utils/tools.py:_check_range_overlap"]}
{"id": "C90", "title": "Adding calibration objects keeps every solution under its labels", "statement": "In the sum of two calibration objects every solution, flag, quality and total quality of the two is found under its antenna, channel (or window), time and Jones component; combinations that neither has are flagged with zero; labels are those of the two objects, each once, and sorted along axes to which the second object adds labels; times keep what belongs to them.", "quantifier": "all pairs of consistent objects with gains or delays, wide-band or not, with times or time ranges, in any order", "why_tests_cant": "Where a solution ends up depends on the order of all labels of both objects.", "anchors": ["src/pyuvdata/uvcal/uvcal.py:UVCal.__add__"]}
{"id": "C91", "title": "Which calibration objects can be combined", "statement": "The sum of two calibration objects exists exactly if both or neither are wide-band, have one Jones component per window, have time ranges; no two time ranges overlap; no solution is in both; at common times they have the same phase center and the same reference antenna; and the total quality can be made.", "quantifier": "all pairs of consistent objects", "why_tests_cant": "Refusal depends on all labels of both objects.", "anchors": ["src/pyuvdata/uvcal/uvcal.py:UVCal.__add__"]}
{"id": "C92", "title": "Adding calibration objects keeps the Jones components of windows", "statement": "If each window has one Jones component, then in the sum of two objects every window has the component it has in them.", "quantifier": "all pairs of consistent objects with one Jones component per window, any numbering of windows", "why_tests_cant": "The order of the windows of the sum depends on all numbers of both objects.", "anchors": ["src/pyuvdata/uvcal/uvcal.py:UVCal.__add__"]}
{"id": "C93", "title": "Selecting from a beam keeps values under their labels", "statement": "UVBeam.select keeps exactly the polarizations or feeds, frequencies and pixels that are asked for, in the order of the object; every value of the beam, passband, basis vector, coupling and frequency-dependent array is under the labels it was under before.", "quantifier": "all beam objects without repeated labels, all combinations of criteria", "why_tests_cant": "Every array has to be cut along every axis it has, in the order the labels are cut in.", "anchors": ["src/pyuvdata/uvbeam/uvbeam.py:UVBeam.select"]}
{"id": "C94", "title": "Which selections from a beam are refused", "statement": "UVBeam.select succeeds exactly if every axis index, pixel, frequency, channel, feed and polarization asked for is there and fits the kind of the beam, and (with the check) no polarization is asked for twice and a power beam that has basis vectors is not cut along pixels. A refused selection leaves the object as it was.", "quantifier": "all beam objects with matching shapes, all combinations of criteria", "why_tests_cant": "Whether a selection is refused depends on all criteria together.", "anchors": ["src/pyuvdata/uvbeam/uvbeam.py:UVBeam.select"]}
{"id": "C95", "title": "Adding beams keeps values under their labels", "statement": "The sum of two beam objects has the polarizations or feeds, frequencies and pixels of both, each once; every value of either is under its labels, combinations that neither has are zero; so are passband, basis vectors, coupling and frequency-dependent arrays.", "quantifier": "all pairs of beam objects without repeated labels, any behaviour of the sort on equal keys", "why_tests_cant": "Where a value ends up depends on the order of all labels of both objects.", "anchors": ["src/pyuvdata/uvbeam/uvbeam.py:UVBeam.__add__"]}
{"id": "C96", "title": "Which beams can be added", "statement": "Adding beams succeeds exactly if both are of one kind and no point is in both, and (with the check) a power beam that has basis vectors gets no new pixels. A refused addition leaves the object as it was.", "quantifier": "all pairs of beam objects with matching shapes", "why_tests_cant": "Overlap depends on all labels of both objects.", "anchors": ["src/pyuvdata/uvbeam/uvbeam.py:UVBeam.__add__"]}
{"id": "C97", "title": "A power beam is the inner product of the fields of its feeds", "statement": "UVBeam.efield_to_power gives one polarization for each pair of feeds (for each feed, without cross polarizations), each once, and the value of a pair is the inner product of the two fields, summed over basis vectors. So a feed with itself is real and at least 0, exchanging the feeds conjugates, the squared modulus of a cross polarization is at most the product of the two autos, beams that describe the same fields have the same power whatever their basis vectors, and with perpendicular basis vectors of length 1 the power is the sum of the powers along the axes.", "quantifier": "all electric-field beams with one feed or a pair x/y, n/e, r/l, every orientation, all complex values and real basis vectors, in exact arithmetic", "why_tests_cant": "The claims are inequalities and identities for all complex numbers and all basis vectors.", "anchors": ["src/pyuvdata/uvbeam/uvbeam.py:UVBeam.efield_to_power", "src/pyuvdata/uvbeam/uvbeam.py:UVBeam._check_auto_power", "src/pyuvdata/uvbeam/uvbeam.py:UVBeam._fix_auto_power"]}
{"id": "C98", "title": "Which beams can be converted to power, and what a refused conversion leaves", "statement": "UVBeam.efield_to_power succeeds exactly for electric-field beams that are not phased arrays, whose feeds have names that make polarizations, with two axes unless the basis vectors are kept; UVBeam.efield_to_pstokes exactly for electric-field beams with two feeds and two axes. A refused conversion leaves the object as it was, and a converted beam is normalised the way it says.", "quantifier": "all beams and options", "why_tests_cant": "Refusal depends on the combination of attributes and options; the last part is about all values.", "anchors": ["src/pyuvdata/uvbeam/uvbeam.py:UVBeam.efield_to_power", "src/pyuvdata/uvbeam/uvbeam.py:UVBeam.efield_to_pstokes"]}
{"id": "C99", "title": "Normalising a beam to its peak keeps the value times the bandpass", "statement": "UVBeam.peak_normalize leaves every value times the bandpass of its channel as it was, makes the largest modulus of each channel 1, changes nothing when done twice, and is refused, without a change, exactly for beams normalised to their solid angle.", "quantifier": "all beams whose channels have numbers that are not all 0", "why_tests_cant": "The largest modulus depends on all values of a channel.", "anchors": ["src/pyuvdata/uvbeam/uvbeam.py:UVBeam.peak_normalize"]}
{"id": "C100", "title": "Pseudo-Stokes beams are the diagonal of the Mueller matrix", "statement": "UVBeam.efield_to_pstokes gives the polarizations pI, pQ, pU, pV; under each is the response of that pseudo-Stokes parameter to itself; all are real and none is larger than pI, which is at least 0 and the mean of the powers of the two feeds.", "quantifier": "all electric-field beams with two feeds and two axes, all complex values", "why_tests_cant": "The claims are inequalities and identities for all complex numbers.", "anchors": ["src/pyuvdata/uvbeam/uvbeam.py:UVBeam.efield_to_pstokes", "src/pyuvdata/uvbeam/uvbeam.py:UVBeam._construct_mueller", "src/pyuvdata/uvbeam/uvbeam.py:UVBeam._stokes_matrix"]}
{"id": "C101", "title": "Interpolating a beam in frequency", "statement": "UVBeam.interp with freq_array gives, for a frequency that is one of the beam's, the values and the bandpass of that channel, whatever kind of interpolation is asked for. If every requested frequency is within freq_interp_tol of a channel, or the kind is 'nearest', each gets the values of the closest channel (the first of them for ties); otherwise the request is accepted exactly if there is more than one channel, at least one frequency asked for, and all lie in the range of the channels. The bandpass that is returned is that of the output frequencies, also without freq_array.", "quantifier": "all beams, all requested frequencies, all tolerances and kinds, any interpolation that is exact at its nodes", "why_tests_cant": "Tests use a handful of frequencies; that the closest channel is found, and when a request is refused, are claims about all of them.", "anchors": ["src/pyuvdata/uvbeam/uvbeam.py:UVBeam.interp", "src/pyuvdata/uvbeam/uvbeam.py:UVBeam._interp_freq"]}
{"id": "C102", "title": "Interpolating a beam at its own points gives its own values", "statement": "UVBeam.interp for a beam on a grid in azimuth and zenith angle gives, at a point of the grid and a frequency of the beam, the value of the beam there for each of the polarizations asked for, in the order asked for. With check_azza_domain a request is refused exactly if a point is further than two steps from every point of the grid, in the same way for few and for many points. Basis vectors that are those of the coordinates stay so, others are refused, and a request with only one of the two coordinates is refused.", "quantifier": "all beams on ascending grids, all points and frequencies, any spline that is exact at its nodes", "why_tests_cant": "The code that finds distances is written twice and chosen by the number of points; tests compare values for some grids only.", "anchors": ["src/pyuvdata/uvbeam/uvbeam.py:UVBeam.interp", "src/pyuvdata/uvbeam/uvbeam.py:UVBeam._interp_az_za_rect_spline"]}
{"id": "C103", "title": "Continuation of a beam around the circle", "statement": "UVBeam.interp continues a beam whose azimuths go around the whole circle periodically: the values used beyond the first and the last azimuth are those at the azimuth a turn further on.", "quantifier": "all evenly spaced azimuths of at least three entries, any value for the turn", "why_tests_cant": "An error of one step in the continuation changes interpolated values only near azimuth zero and only slightly.", "anchors": ["src/pyuvdata/uvbeam/uvbeam.py:UVBeam._interp_az_za_rect_spline"]}
{"id": "C104", "title": "Saved interpolation functions change nothing", "statement": "UVBeam.interp with reuse_spline=True gives the same values as without, for any sequence of requests and changes of the beam.", "quantifier": "all beams and requests, all states of the saved functions", "why_tests_cant": "Tests repeat one request; that no stale function is used is a claim about all histories.", "anchors": ["src/pyuvdata/uvbeam/uvbeam.py:UVBeam.interp", "src/pyuvdata/uvbeam/uvbeam.py:UVBeam._interp_az_za_rect_spline"]}
{"id": "C105", "title": "New beams from interpolation keep their labels", "statement": "UVBeam.interp with new_object=True returns a beam with the frequencies and coordinates asked for whose value for a polarization, frequency and point of the old beam is that of the old beam; if polarizations are given these are the polarizations of the new beam.", "quantifier": "all beams on ascending grids and all requests", "why_tests_cant": "Exchanged labels give a beam that passes all checks; tests do not combine a choice of polarizations with new_object.", "anchors": ["src/pyuvdata/uvbeam/uvbeam.py:UVBeam.interp"]}
{"id": "C106", "title": "Interpolation in healpix maps and areas of beams", "statement": "For healpix maps UVBeam.interp gives at a point the weighted mean of the values of the pixels around it and refuses maps whose pixels are not in order. get_beam_area and get_beam_sq_area of a full map are the sums over pixels of the value, respectively of its squared modulus, times the area of a pixel, 4π for a map that is one everywhere; with values between zero and one, the area of the square is at most the area, the area is at most 4π, and its square is at most 4π times the area of the square.", "quantifier": "all maps and values, any weights", "why_tests_cant": "Order and inequality claims hold for all maps; tests use one map in order.", "anchors": ["src/pyuvdata/uvbeam/uvbeam.py:UVBeam._interp_healpix_bilinear", "src/pyuvdata/uvbeam/uvbeam.py:UVBeam._get_beam", "src/pyuvdata/uvbeam/uvbeam.py:UVBeam.get_beam_area", "src/pyuvdata/uvbeam/uvbeam.py:UVBeam.get_beam_sq_area"]}
{"id": "C107", "title": "Visibilities survive a uvfits file", "statement": "If write_uvfits accepts an object without negative numbers of samples, then reading the file gives at every row and channel and under every polarization number the visibility and the number of samples that were written there, and the flag too, except that what has no samples comes back flagged. Every polarization comes back exactly once; polarizations may come back in another order.", "quantifier": "all objects, any number of rows, windows, channels and polarizations in any order", "why_tests_cant": "The sign of imaginary parts, the reordering of polarizations and the merging of flags with numbers of samples are undone in another function; tests compare a few files whose polarizations are in order.", "anchors": ["src/pyuvdata/uvdata/uvfits.py:UVFITS.write_uvfits", "src/pyuvdata/uvdata/uvfits.py:UVFITS._get_data"]}
{"id": "C108", "title": "Frequencies survive a uvfits file", "statement": "If an object passes the check of channel spacings and write_uvfits accepts it, then reading the file gives each channel its frequency back, up to the number of the channel in its window times twice the tolerance of the check plus the rounding of the channel width in the table, and its channel width; windows keep their numbers.", "quantifier": "all objects, any number of windows, ascending or descending", "why_tests_cant": "The order of windows enters in two places, the list of windows and the channels, which agree in every test.", "anchors": ["src/pyuvdata/uvdata/uvfits.py:UVFITS.write_uvfits", "src/pyuvdata/uvdata/uvfits.py:UVFITS.read_uvfits", "src/pyuvdata/utils/frequency.py:_check_freq_spacing", "src/pyuvdata/utils/frequency.py:_check_flex_spw_contiguous"]}
{"id": "C109", "title": "Reading a part of a uvfits file is selecting from the whole", "statement": "Reading a uvfits file with a choice of rows, channels and polarizations gives the same labels and values as reading all of it and then selecting.", "quantifier": "all files, all choices of positions on the three axes", "why_tests_cant": "The order in which the axes are cut depends on the sizes of the choices, and the reshaping on the number of windows; tests select from files with one window.", "anchors": ["src/pyuvdata/uvdata/uvfits.py:UVFITS._get_data"]}
{"id": "C110", "title": "Times, antennas and sources survive a uvfits file", "statement": "Reading a file written by write_uvfits gives each row its time up to the square of the relative rounding error times the time since midnight, its two antennas with their names, and its source with its name and place in the frame of the file, which is the most common frame of the catalog. Every file that is written can be read.", "quantifier": "all rows, antenna tables and catalogs; any rounding of times and integers", "why_tests_cant": "Numbers of rows are stored in the precision of the visibilities, tables as integers; tests use small numbers, short names and catalogs with different sources.", "anchors": ["src/pyuvdata/uvdata/uvfits.py:UVFITS.write_uvfits", "src/pyuvdata/uvdata/uvfits.py:UVFITS.read_uvfits", "src/pyuvdata/uvdata/uvfits.py:UVFITS._get_parameter_data"]}
{"id": "C111", "title": "Extra keywords survive a uvfits file", "statement": "Extra keywords written to a uvfits file come back with their values, with names in capitals and cut to eight letters, and do not change anything else.", "quantifier": "all headers and extra keywords", "why_tests_cant": "Which names are taken for those of the format is decided by looking for parts of names; tests use a few names.", "anchors": ["src/pyuvdata/uvdata/uvfits.py:UVFITS.write_uvfits", "src/pyuvdata/utils/io/fits.py:_get_extra_keywords"]}
{"id": "C112", "title": "Which objects can be written as uvfits", "statement": "An object that has passed the checks of write_uvfits is accepted if and only if it has windows, all of the same size, with a first frequency above zero and a step other than zero, and its polarizations sorted by absolute value are evenly spaced.", "quantifier": "all objects", "why_tests_cant": "Acceptance is a claim about all objects; tests give one object for each error.", "anchors": ["src/pyuvdata/uvdata/uvfits.py:UVFITS.write_uvfits"]}
{"id": "C113", "title": "Gains, delays and labels survive a calfits file", "statement": "If write_calfits accepts an object, reading the file gives back every gain or delay, flag and quality, the total quality, the Jones components, the antennas with data, and the numbers and names of all antennas; a range of frequencies of delays; and the number of the window.", "quantifier": "all objects, any sizes", "why_tests_cant": "Gains, flags and qualities are images of one array that are told apart by their number, the antennas are filled up with negative numbers; tests compare a few files.", "anchors": ["src/pyuvdata/uvcal/calfits.py:CALFITS.write_calfits", "src/pyuvdata/uvcal/calfits.py:CALFITS.read_calfits"]}
{"id": "C114", "title": "Frequencies and times survive a calfits file", "statement": "If write_calfits accepts an object, reading the file gives each channel its frequency and each time back up to the tolerances of these parameters, and a range of times.", "quantifier": "all objects, any number of channels and times", "why_tests_cant": "Axes are written as a first value and a step; how the error grows with the number of steps, and the sign of the step, are not seen with the few short axes of the tests.", "anchors": ["src/pyuvdata/uvcal/calfits.py:CALFITS.write_calfits", "src/pyuvdata/uvcal/calfits.py:CALFITS.read_calfits", "src/pyuvdata/utils/io/fits.py:_gethduaxis", "src/pyuvdata/utils/frequency.py:_check_freq_spacing", "src/pyuvdata/utils/tools.py:_test_array_constant_spacing"]}
{"id": "C115", "title": "Which objects can be written as calfits", "statement": "A complete object is accepted by write_calfits if and only if it has one window, its frequencies are evenly spaced with equal widths, it has either one time or range of times or evenly spaced times with equal integration times and no ranges, and its Jones components are evenly spaced.", "quantifier": "all objects that have the values they need", "why_tests_cant": "Acceptance is a claim about all objects; tests give one object for each error.", "anchors": ["src/pyuvdata/uvcal/calfits.py:CALFITS.write_calfits", "src/pyuvdata/utils/frequency.py:_check_freq_spacing", "src/pyuvdata/utils/tools.py:_test_array_constant_spacing"]}
{"id": "C116", "title": "Extra keywords survive a calfits file", "statement": "Extra keywords written to a calfits file come back with their values, with names in capitals and cut to eight letters, do not change anything else, and none comes back that was not written.", "quantifier": "all headers and extra keywords", "why_tests_cant": "Tests read a file, write it and read it again, so what the first reading adds is not seen.", "anchors": ["src/pyuvdata/uvcal/calfits.py:CALFITS.write_calfits", "src/pyuvdata/uvcal/calfits.py:CALFITS.read_calfits", "src/pyuvdata/utils/io/fits.py:_get_extra_keywords"]}
{"id": "C117", "title": "Beams survive a beamfits file", "statement": "If write_beamfits accepts a beam, reading the file gives back every value, each frequency and coordinate up to the tolerances of these parameters, the polarizations or feeds, the pixels, and the columns with one value per frequency.", "quantifier": "all beams on grids or healpix pixels, of fields or of power, any sizes", "why_tests_cant": "Where the axes of the array in the file are depends on kind and type of the values; tests write beams of power only with values that are complex.", "anchors": ["src/pyuvdata/uvbeam/beamfits.py:BeamFITS.write_beamfits", "src/pyuvdata/uvbeam/beamfits.py:BeamFITS.read_beamfits", "src/pyuvdata/utils/io/fits.py:_gethduaxis", "src/pyuvdata/utils/tools.py:_test_array_constant_spacing"]}
{"id": "C118", "title": "Ranges of a beamfits file select what is in them", "statement": "Reading a beamfits file with ranges of azimuths, zenith angles or frequencies gives the beam that has those of its coordinates and frequencies that are in the ranges, with the values of the whole beam there, or is refused.", "quantifier": "all files, axes and ranges", "why_tests_cant": "The first and the last index are searched for independently; tests use rising axes and ranges that contain something.", "anchors": ["src/pyuvdata/uvbeam/beamfits.py:BeamFITS.read_beamfits"]}
{"id": "C119", "title": "Setting data by key changes that key's records only", "statement": "set_data (also set_flags, set_nsamples) with a key that stands for records stored in that direction changes exactly those records to the given values and leaves every other value; get_data with the same key then gives back the values. For a pair with a polarization it is accepted exactly if the pair is there, not also in the other direction, the polarization is there and the shape is right.", "quantifier": "all consistent objects, all keys, all arrays of values", "why_tests_cant": "The write goes through slices or lists of numbers found from the key, in nested loops; tests set one or two keys.", "anchors": ["src/pyuvdata/uvdata/uvdata.py:UVData.set_data", "src/pyuvdata/uvdata/uvdata.py:UVData._set_method_helper", "src/pyuvdata/uvdata/uvdata.py:UVData._key2inds"]}
{"id": "C120", "title": "Queries after reading a file into an object in use", "statement": "After a file is read into an object, get_data and the other queries by pair or polarization are answered from the file.", "quantifier": "all objects, histories of queries, files and keys", "why_tests_cant": "Reading replaces the parameters but the caches belong to the object; tests read into new objects.", "anchors": ["src/pyuvdata/uvdata/uvdata.py:UVData._convert_from_filetype", "src/pyuvdata/uvdata/uvdata.py:UVData._key2inds", "src/pyuvdata/uvdata/uvdata.py:UVData.antpair2ind", "src/pyuvdata/uvbase.py:UVBase.prop_fset"]}
{"id": "C121", "title": "A new object has the given combinations of times and pairs with the labels of their times", "statement": "new_uvdata makes rows for every combination of the given times and pairs exactly once (or the given rows, if the outer product is not wanted), and each row has the sidereal time of its time and the integration time given for it.", "quantifier": "all lists of times and pairs, all settings of the outer product and of the faster axis", "why_tests_cant": "Times, sidereal times and integration times are tiled or repeated separately, some of them sorted first; tests give sorted times.", "anchors": ["src/pyuvdata/uvdata/initializers.py:configure_blt_rectangularity", "src/pyuvdata/uvdata/initializers.py:get_time_params", "src/pyuvdata/uvdata/initializers.py:new_uvdata"]}
{"id": "C122", "title": "Integration times and widths of channels that are left out", "statement": "If integration_time or channel_width are not given to new_uvdata, every time gets the time to the next one and every channel the distance to the next one, the last one as the one before, a single one 1; and the widths are positive.", "quantifier": "all lists of times and frequencies", "why_tests_cant": "Differences are taken of sorted times but put in the given order.", "anchors": ["src/pyuvdata/uvdata/initializers.py:get_time_params", "src/pyuvdata/uvdata/initializers.py:get_freq_params", "src/pyuvdata/uvdata/initializers.py:new_uvdata"]}
{"id": "C123", "title": "The order of rows that a new object reports is the actual order", "statement": "If new_uvdata reports a blt_order, its rows are sorted in this way.", "quantifier": "all times and antennas", "why_tests_cant": "The order is written down without looking at the rows; tests give sorted times and antennas.", "anchors": ["src/pyuvdata/uvdata/initializers.py:new_uvdata", "src/pyuvdata/uvdata/initializers.py:configure_blt_rectangularity"]}
{"id": "C124", "title": "Polarizations given to a new object by name keep their names", "statement": "If polarizations are given to new_uvdata by name, they are reported under the same names.", "quantifier": "all names and orientations", "why_tests_cant": "Names by orientation are read with one orientation and written with another.", "anchors": ["src/pyuvdata/uvdata/initializers.py:new_uvdata", "src/pyuvdata/utils/pol.py:polstr2num"]}
{"id": "C125", "title": "In a string of antennas the last thing said about a pair counts", "statement": "The antenna pairs that parse_ants returns for a string are the pairs of the data for which the last part of the string that speaks of the pair asks for it and does not exclude it; each once and in the order of antennas that the data have.", "quantifier": "all strings of parts and all objects", "why_tests_cant": "Parts add to and take from a list in the order of the string; tests have a few strings.", "anchors": ["src/pyuvdata/utils/bls.py:parse_ants"]}
{"id": "C126", "title": "A selection by a string keeps the pairs that the string asks for", "statement": "select with ant_str keeps exactly the rows of the pairs that the string asks for: for antennas with commas between, the pairs with one of them; for all, auto or cross followed by antennas with minus signs, those pairs that have none of the antennas; and it raises an error if there is no such pair.", "quantifier": "all objects, all lists of antennas", "why_tests_cant": "No restriction and no pair at all are the same value inside; tests choose something that exists.", "anchors": ["src/pyuvdata/utils/bls.py:parse_ants", "src/pyuvdata/uvdata/uvdata.py:UVData.select"]}
{"id": "C127", "title": "Feeds named in a string choose polarizations", "statement": "If antennas in the string have feeds, the polarizations returned by parse_ants are those made of the feeds that the last part of the string speaking of them asks for, sorted from the greatest number to the least.", "quantifier": "all strings of parts and all objects", "why_tests_cant": "Names of polarizations depend on the orientation of the telescope; tests use objects without one.", "anchors": ["src/pyuvdata/utils/bls.py:parse_ants", "src/pyuvdata/uvdata/uvdata.py:UVData.get_pols"]}
{"id": "C128", "title": "A selection of calibration solutions keeps exactly what is asked for, under its labels", "statement": "UVCal.select keeps the antennas, times, Jones components and windows that are asked for and the channels asked for by position, frequency or window, in the order they had, with every label and every value as before; windows without channels disappear; a component that only windows have chooses those windows.", "quantifier": "all narrow-band and wide-band objects, all requests", "why_tests_cant": "Each request becomes a list of positions, lists are joined or intersected, and arrays are cut axis by axis; tests combine few requests.", "anchors": ["src/pyuvdata/uvcal/uvcal.py:UVCal.select", "src/pyuvdata/uvcal/uvcal.py:UVCal._select_preprocess", "src/pyuvdata/uvcal/uvcal.py:UVCal._select_by_index"]}
{"id": "C129", "title": "A selection of calibration solutions that is refused leaves the object as it was", "statement": "If UVCal.select in place raises an error, the object is unchanged.", "quantifier": "all objects and requests", "why_tests_cant": "Some requests are only found to be impossible when axes have already been cut; tests look at the error and not at the object.", "anchors": ["src/pyuvdata/uvcal/uvcal.py:UVCal.select", "src/pyuvdata/uvcal/uvcal.py:UVCal._select_by_index"]}
{"id": "C130", "title": "Averaging over redundant baselines gives the weighted mean of each group", "statement": "After compress_by_redundancy with method average there is one row for each row of the first baseline of each group. Its visibility is the mean of the rows of the group at that time, weighted with their sample counts, over those that are not flagged (over all of them if all channels of all of them are flagged), conjugated where a baseline points the other way than the first; its sample count is their sum; it is flagged where all of them are flagged.", "quantifier": "all objects, groups, conjugated baselines, flags and weights", "why_tests_cant": "Rows of all baselines of a group are put together, clustered by time and put back by time; tests have data that are the same for all baselines.", "anchors": ["src/pyuvdata/uvdata/uvdata.py:UVData.compress_by_redundancy", "src/pyuvdata/utils/redundancy.py:find_clusters"]}
{"id": "C131", "title": "Averaging over redundant baselines keeps redundant visibilities and all samples", "statement": "If all baselines of a group see the same visibility, compress_by_redundancy with method average keeps that visibility; and the sum of the sample counts that are not flagged stays the same.", "quantifier": "all objects and groups", "why_tests_cant": "Tests make redundant data with parallel polarizations and all times.", "anchors": ["src/pyuvdata/uvdata/uvdata.py:UVData.compress_by_redundancy"]}
{"id": "C132", "title": "Reading a part of a uvh5 file gives the part of the whole", "statement": "Reading a uvh5 file with a selection gives arrays with the shape of the selection, whose elements are those of the file at the selected rows, channels and polarizations; whatever the selection, the value of multidim_index and the number of axes in the file.", "quantifier": "all files, all selections, both ways of indexing", "why_tests_cant": "The code chooses what to read first by the fractions of the axes, turns positions into slices if that is cheaper and selects the rest in memory; tests have a few selections.", "anchors": ["src/pyuvdata/uvdata/uvh5.py:UVH5._get_data", "src/pyuvdata/utils/io/hdf5.py:_index_dset"]}
{"id": "C133", "title": "Writing a part of a uvh5 file changes the selected cells and nothing else", "statement": "write_uvh5_part with arrays of the shape of the selection writes the given values into exactly the selected cells of the three datasets; all other cells, the metadata and the object stay. Arrays of another shape are refused and nothing changes.", "quantifier": "all files, objects, selections and arrays", "why_tests_cant": "The code has a branch for each combination of axes that are slices or lists and loops over the rest; a mistake writes to cells that no test reads.", "anchors": ["src/pyuvdata/uvdata/uvh5.py:UVH5.write_uvh5_part"]}
{"id": "C134", "title": "A uvh5 file written in parts is like the file written at once", "statement": "After initialize_uvh5_file and any parts of the arrays of an object written in any order, overlapping or not, the cells in at least one part have the values that write_uvh5 writes, and all others have the initial values.", "quantifier": "all objects, all lists of parts", "why_tests_cant": "It is a statement about any number of calls; tests write two halves.", "anchors": ["src/pyuvdata/uvdata/uvh5.py:UVH5.initialize_uvh5_file", "src/pyuvdata/uvdata/uvh5.py:UVH5.write_uvh5_part", "src/pyuvdata/uvdata/uvh5.py:UVH5.write_uvh5"]}
{"id": "C135", "title": "A part that cannot be written changes nothing, and additions to the history stay", "statement": "If write_uvh5_part raises an error, neither the file nor the object has changed; what add_to_history adds with one part is still there after the next.", "quantifier": "all files, objects and parts", "why_tests_cant": "Tests look at the error and write one addition.", "anchors": ["src/pyuvdata/uvdata/uvh5.py:UVH5.write_uvh5_part", "src/pyuvdata/uvdata/uvh5.py:UVH5._check_header"]}
{"id": "C136", "title": "Times, antenna pairs and antennas read on demand are those of the file", "statement": "FastUVH5Meta.times, antpairs and unique_ants list each time, antenna pair and antenna of the data of a uvh5 file exactly once, whatever the file or the caller says about the layout of the rows, as long as it is right.", "quantifier": "all files, all arguments of the constructor", "why_tests_cant": "The lists are cut out of the arrays by strides that depend on eight sources of information about the layout; tests have one layout.", "anchors": ["src/pyuvdata/uvdata/uvh5.py:FastUVH5Meta.times", "src/pyuvdata/uvdata/uvh5.py:FastUVH5Meta.antpairs", "src/pyuvdata/uvdata/uvh5.py:FastUVH5Meta.unique_ants", "src/pyuvdata/uvdata/uvh5.py:FastUVH5Meta.blts_are_rectangular"]}
{"id": "C137", "title": "Sidereal times read on demand belong to the times", "statement": "Entry i of FastUVH5Meta.lsts is the sidereal time of entry i of FastUVH5Meta.times.", "quantifier": "all files, all arguments of the constructor", "why_tests_cant": "Sorting by time and sorting by sidereal time are the same unless the night passes through zero; the files of the tests do not.", "anchors": ["src/pyuvdata/uvdata/uvh5.py:FastUVH5Meta.lsts", "src/pyuvdata/uvdata/uvh5.py:FastUVH5Meta.times"]}
{"id": "C138", "title": "A key is found in a file if the file has data for it", "statement": "FastUVH5Meta.has_key is true exactly if the file has the antenna pair with the polarization, or the pair in the other direction with the conjugate polarization; without polarization, if it has the pair in either direction.", "quantifier": "all files and keys", "why_tests_cant": "Tests ask for a key that exists and for antennas that do not exist.", "anchors": ["src/pyuvdata/uvdata/uvh5.py:FastUVH5Meta.has_key"]}
{"id": "C139", "title": "The number of baselines read on demand is that of the data", "statement": "FastUVH5Meta.Nbls is the number of different baselines in the file.", "quantifier": "all files whose header has the right number, and old files of HERA", "why_tests_cant": "The header is corrected for one telescope if its numbers look like those of old files; the tests have such old files only.", "anchors": ["src/pyuvdata/uvdata/uvh5.py:FastUVH5Meta.Nbls"]}
{"id": "C140", "title": "Normalization divides each visibility by the autocorrelations of its antennas at its time", "statement": "After normalize_by_autos each visibility is divided by the geometric mean of the autocorrelations of its two antennas, for its two feeds, at its time (multiplied with invert); it gets a flag where one of them is flagged or not positive, and in all channels if one is missing; with skip_autos the autocorrelations do not change. Nothing else changes.", "quantifier": "all objects, all orders of rows", "why_tests_cant": "Which autocorrelation is used depends on how the rows are put into groups by time; a test with one time, or one that undoes the normalization, gives the same with any autocorrelation.", "anchors": ["src/pyuvdata/uvdata/uvdata.py:UVData.normalize_by_autos"]}
{"id": "C141", "title": "Normalization can be undone", "statement": "normalize_by_autos followed by normalize_by_autos(invert=True) gives the visibilities and flags back wherever the normalized object has no flag.", "quantifier": "all objects, all orders of rows", "why_tests_cant": "Tests have one object; a wrong choice of autocorrelations is undone as well as a right one.", "anchors": ["src/pyuvdata/uvdata/uvdata.py:UVData.normalize_by_autos"]}
{"id": "C142", "title": "Removing equalization coefficients corrects every visibility once", "statement": "remove_eq_coeffs multiplies (or divides, by convention) every visibility by the coefficients of its two antennas in its channel exactly once and changes nothing else; it is refused without coefficients or a known convention, and then nothing changes.", "quantifier": "all objects, all orders of rows and of antennas", "why_tests_cant": "The rows of each pair are found by strides if the rows are a grid; tests compare with the same loop.", "anchors": ["src/pyuvdata/uvdata/uvdata.py:UVData.remove_eq_coeffs"]}
{"id": "C143", "title": "Sums and differences of visibilities need objects that agree", "statement": "sum_vis and diff_vis give the sum (difference) of the visibilities with all other parameters of the first object, and the keywords and file names of both (the first wins); they are refused exactly if a parameter that is not overridden differs, and then neither object changes.", "quantifier": "all pairs of objects, all overrides", "why_tests_cant": "There are as many parameters as can differ and all subsets of overrides.", "anchors": ["src/pyuvdata/uvdata/uvdata.py:UVData.sum_vis", "src/pyuvdata/uvdata/uvdata.py:UVData.diff_vis"]}
{"id": "C144", "title": "The difference undoes the sum", "statement": "After sum_vis and diff_vis with the same second object the visibilities and parameters are those of the first object.", "quantifier": "all pairs of objects", "why_tests_cant": "A statement about all data; with exact arithmetic.", "anchors": ["src/pyuvdata/uvdata/uvdata.py:UVData.sum_vis", "src/pyuvdata/uvdata/uvdata.py:UVData.diff_vis"]}
{"id": "C145", "title": "The check passes exactly the consistent objects", "statement": "UVData.check passes if and only if the statements of the object about its numbers of antennas, baselines and times, its windows, phase centers, polarizations and antennas are right; and, if values are checked, the baseline vectors fit the antenna positions (with strict_uvw_antpos_check, or their opposites do with allow_flip_conj), no autocorrelation has a baseline vector and every cross correlation has one.", "quantifier": "all objects, all options", "why_tests_cant": "Every reader and writer relies on the check; tests break one statement at a time.", "anchors": ["src/pyuvdata/uvdata/uvdata.py:UVData.check"]}
{"id": "C146", "title": "Autocorrelations are made real and nothing else", "statement": "If autocorrelations are checked, an object passes only if those that should be real (parallel hands and Stokes parameters) are, or if it is asked to change them; then each becomes its absolute value, and no other visibility changes. After a check that passes they are real.", "quantifier": "all objects, also with a polarization for each window", "why_tests_cant": "Reading and writing files does this by default; tests have autocorrelations of parallel hands.", "anchors": ["src/pyuvdata/uvdata/uvdata.py:UVData.check", "src/pyuvdata/uvdata/uvdata.py:UVData._fix_autos"]}
{"id": "C147", "title": "A check changes an object only if asked, and only once", "statement": "Without allow_flip_conj and fix_autos a check changes nothing, whether it passes or not. Otherwise it turns the baseline vectors and visibilities if only the opposite vectors fit, and makes autocorrelations real; after it has passed, the same check passes again and changes nothing.", "quantifier": "all objects, all options", "why_tests_cant": "Two checks in a row are not tested, and the changes are made in the middle of the checks.", "anchors": ["src/pyuvdata/uvdata/uvdata.py:UVData.check"]}
{"id": "C148", "title": "A uvh5 file gives back every parameter", "statement": "An object written to a uvh5 file and read again has the same metadata: every number, text, statement about the layout of the rows, phase center and extra keyword, those not set included; only the version is added to the history once, and what is known about the telescope and not set is filled in. What cannot be stored is refused on writing.", "quantifier": "all objects, any names and values of keywords and phase centers", "why_tests_cant": "Values pass through several encodings (fixed and variable length text, empty datasets, names with slashes, sorted members); tests write a few sample files.", "anchors": ["src/pyuvdata/uvdata/uvh5.py:UVH5._write_header", "src/pyuvdata/uvdata/uvh5.py:UVH5._read_header_with_fast_meta", "src/pyuvdata/utils/io/hdf5.py:HDF5Meta", "src/pyuvdata/telescopes.py:Telescope.from_hdf5", "src/pyuvdata/telescopes.py:Telescope.write_hdf5_header"]}
{"id": "C149", "title": "Missing telescope parameters are filled with those of the same antennas", "statement": "update_params_from_known_telescopes changes nothing that is set unless asked to overwrite; missing names, numbers and positions of antennas are those of the same antennas (by name, else by number) in the table, and nothing about antennas is filled if one of them is not in the table. A telescope whose position is neither set nor known is refused.", "quantifier": "all telescopes, all tables", "why_tests_cant": "Tests have antennas in the order of the table, all found in the same way.", "anchors": ["src/pyuvdata/telescopes.py:Telescope.update_params_from_known_telescopes"]}
{"id": "C150", "title": "A selection from a flag object keeps exactly what is asked for", "statement": "After UVFlag.select the object has exactly the rows, antennas, channels and polarizations that meet all criteria, the flags or metrics and weights at each kept position are those that were there before, and all counts and the windows fit what is left. Rows, channels and polarizations stay in order; antennas of antenna objects come in the order asked for.", "quantifier": "all flag objects of the three types, all combinations of criteria", "why_tests_cant": "Tests select by one or two criteria from one sample file; that all of them are combined correctly for each type is not tested.", "anchors": ["src/pyuvdata/uvflag/uvflag.py:UVFlag.select", "src/pyuvdata/uvflag/uvflag.py:UVFlag._select_preprocess", "src/pyuvdata/uvflag/uvflag.py:UVFlag._select_metadata"]}
{"id": "C151", "title": "A selection from a flag object is refused if something is not there, and then changes nothing", "statement": "UVFlag.select is made exactly if everything asked for is there and some row meets all criteria; otherwise there is an error and the object is as it was before.", "quantifier": "all flag objects of the three types, all combinations of criteria", "why_tests_cant": "The object is changed in place, in several steps; tests compare messages and not the object afterwards.", "anchors": ["src/pyuvdata/uvflag/uvflag.py:UVFlag.select", "src/pyuvdata/uvflag/uvflag.py:UVFlag._select_preprocess", "src/pyuvdata/uvflag/uvflag.py:UVFlag._select_metadata"]}
{"id": "C152", "title": "Combined metrics are averages over all objects", "statement": "combine_metrics makes the metric at each position the average with weights (or average of absolute values, or root mean square) of the metrics of all objects there and its weight the sum of weights; infinite metrics do not count. It is done exactly if all objects have metrics of the same shape and the method is one for numbers; the order of the other objects does not matter, and objects may be combined in steps.", "quantifier": "all flag objects in metric mode, any number of others, all positions", "why_tests_cant": "Tests combine copies of one object; that steps and orders agree is a statement about all metrics and weights.", "anchors": ["src/pyuvdata/uvflag/uvflag.py:UVFlag.combine_metrics"]}
{"id": "C153", "title": "Waterfalls and collapsed polarizations are averages over what was observed at each time", "statement": "collapse_pol makes each metric the average over polarizations and its weight the sum; to_waterfall makes it the average over all baselines or antennas at each time, with each time once; with keep_pol=False over both, and it is the same to collapse polarizations afterwards. With return_weights_square the sums of squared weights of each time are stored. Flags are collapsed by \"or\" and \"and\"; if they are averaged they become shares.", "quantifier": "all flag objects, all methods, any number of baselines at each time in any order", "why_tests_cant": "Tests have the same number of baselines at each time and equal weights, so that wrong weights do not show.", "anchors": ["src/pyuvdata/uvflag/uvflag.py:UVFlag.collapse_pol", "src/pyuvdata/uvflag/uvflag.py:UVFlag.to_waterfall"]}
{"id": "C154", "title": "Antennas are put in the order of another object with their names and positions", "statement": "After sort_ant_metadata_like the antenna numbers are in the order of the other object, and every antenna still has its name and position; if an antenna is missing from the other object nothing changes.", "quantifier": "all pairs of objects", "why_tests_cant": "Tests have one permutation that is its own inverse.", "anchors": ["src/pyuvdata/uvflag/uvflag.py:UVFlag.sort_ant_metadata_like"]}
{"id": "C155", "title": "Reading a file with selection keywords is reading it and selecting", "statement": "UVData.read of one file with keywords that select gives exactly the visibilities of the file that meet all keywords given, whatever the type of the file, whether the selection is made while reading or afterwards; it is an error if there are none, or if two keywords exclude each other.", "quantifier": "all file types, all combinations of keywords, all values", "why_tests_cant": "Keywords are split between the reader and a later selection in another way for each type of file; tests try single keywords for some types.", "anchors": ["src/pyuvdata/uvdata/uvdata.py:UVData.read"]}
{"id": "C156", "title": "Reading several files puts together what is read from each", "statement": "UVData.read of several files gives the sum of the objects read from each of them with the same keywords, each once and in their order. With skip_bad_files those that cannot be read are left out with a warning; without it the error of the first of them is raised.", "quantifier": "any number of files, all file types, all keywords", "why_tests_cant": "Tests read two or three files with one keyword; files are added in rounds whose brackets depend on their number.", "anchors": ["src/pyuvdata/uvdata/uvdata.py:UVData.read"]}
{"id": "C157", "title": "A selection from MIR data keeps exactly the spectra that meet it with all that belongs to them", "statement": "After MirParser.select with a list of conditions exactly those spectra are kept that were kept before, meet all conditions on spectra, and whose baseline, integration, weather and two antenna records were kept and meet the conditions on these. Every spectrum that is kept has all of these records still there. Two selections after each other keep the same as one with all conditions; with reset earlier selections do not matter. A selection is an error exactly if there is no condition or one of them cannot be tested.", "quantifier": "all tables, all masks, all lists of conditions", "why_tests_cant": "Six tables are filtered one after the other with shortcuts for tables that are complete; tests have one file with one or two conditions.", "anchors": ["src/pyuvdata/uvdata/mir_parser.py:MirParser.select", "src/pyuvdata/uvdata/mir_parser.py:MirParser._update_filter", "src/pyuvdata/uvdata/mir_meta_data.py:MirMetaData._index_query", "src/pyuvdata/uvdata/mir_meta_data.py:MirMetaData.set_mask"]}
{"id": "C158", "title": "Reading MIR files with selection keywords selects what they say", "statement": "read_mir with keywords keeps exactly the spectra that meet all of them.", "quantifier": "all MIR data, all combinations of keywords", "why_tests_cant": "Tests give single keywords on one file.", "anchors": ["src/pyuvdata/uvdata/mir.py:Mir.read_mir", "src/pyuvdata/uvdata/mir_parser.py:MirParser.select"]}
{"id": "C159", "title": "Visibilities survive being written to a measurement set and read back", "statement": "After write_ms and read_ms of a consistent object with projected phase centers there are exactly the visibilities there were, each with its flag, its weight and all labels: time, antennas, integration time, uvw, scan, entry of the catalog of phase centers, window, frequency, width and polarization; with flip_conj the conjugates with opposite uvw. Nothing else is there, except flagged zeros for polarizations that a window does not have if one polarization per window is not allowed.", "quantifier": "all objects with any number of windows and polarizations in any order, with one polarization per window or not", "why_tests_cant": "Windows are written scan by scan and read one after the other into sorted arrays; tests have a few files whose rows and polarizations are in common orders.", "anchors": ["src/pyuvdata/uvdata/ms.py:MS.write_ms", "src/pyuvdata/uvdata/ms.py:MS._read_ms_main", "src/pyuvdata/uvdata/ms.py:MS.read_ms", "src/pyuvdata/utils/io/ms.py:write_ms_polarization", "src/pyuvdata/utils/io/ms.py:write_ms_data_description", "src/pyuvdata/utils/io/ms.py:write_ms_spectral_window", "src/pyuvdata/utils/io/ms.py:write_ms_field"]}
{"id": "C160", "title": "Writing a measurement set does not change the object, and weights of records belong to their polarizations", "statement": "write_ms leaves the object as it was. The weight of every record in the file is, for each polarization of its visibilities, the median over channels of the weights of that polarization.", "quantifier": "all objects, with or without flip_conj", "why_tests_cant": "Tests compare objects that were copied before, with polarizations in CASA order or one window.", "anchors": ["src/pyuvdata/uvdata/ms.py:MS.write_ms"]}
{"id": "C161", "title": "The catalog of phase centers survives a measurement set", "statement": "After write_ms and read_ms every entry of the catalog of phase centers is there again under its number, with its name, its type, its frame and epoch, its coordinates and proper motion, and for ephemerides all times and positions. Writing is refused exactly if the catalog is empty or an entry has a frame or epoch that measurement sets have no name for.", "quantifier": "all catalogs, with any mix of entries and frames", "why_tests_cant": "Entries go to two tables, with several rows for ephemerides, that are searched by name, number and time; tests have catalogs of one or two entries.", "anchors": ["src/pyuvdata/utils/io/ms.py:write_ms_field", "src/pyuvdata/utils/io/ms.py:read_ms_field", "src/pyuvdata/utils/io/ms.py:write_ms_source", "src/pyuvdata/utils/io/ms.py:read_ms_source", "src/pyuvdata/uvdata/ms.py:MS.read_ms"]}
{"id": "C162", "title": "Antennas and the location of the telescope survive a measurement set", "statement": "After write_ms and read_ms there are exactly the antennas there were, in the order of their numbers, each with its number, name, position and diameter; location, name and instrument of the telescope and the ellipsoid of one on the moon are the same.", "quantifier": "all telescopes with any antenna numbers in any order", "why_tests_cant": "Antenna numbers are rows of the table, with empty rows between that must be told from antennas; tests have a few telescopes.", "anchors": ["src/pyuvdata/utils/io/ms.py:write_ms_antenna", "src/pyuvdata/utils/io/ms.py:read_ms_antenna", "src/pyuvdata/utils/io/ms.py:write_ms_observation", "src/pyuvdata/utils/io/ms.py:read_ms_observation", "src/pyuvdata/utils/io/ms.py:get_ms_telescope_location", "src/pyuvdata/uvdata/ms.py:MS.read_ms"]}
{"id": "C163", "title": "Scan numbers count the stretches of one phase center", "statement": "If scan numbers are not set, those made for a measurement set start from one and go up by one exactly where the phase center changes from one row to the next. So two rows have the same scan number exactly if all rows from one to the other have the same phase center. Numbers that are set stay as they are.", "quantifier": "all lists of phase centers of rows, all catalogs in any order", "why_tests_cant": "Runs are found for each entry of the catalog and put in order; tests have rows with two phase centers.", "anchors": ["src/pyuvdata/uvdata/uvdata.py:UVData._set_scan_numbers", "src/pyuvdata/uvdata/ms.py:MS.write_ms"]}
{"id": "C164", "title": "Visibilities of the first MWA correlator are those of their antennas and polarizations", "statement": "read_mwa_corr_fits of files of the first correlator (128 antennas) gives, for every pair of antennas and polarizations, the product of the signals that the metafits file says are theirs: the conjugate of that of the first antenna with that of the second, where rows are labelled with the numbers of the tiles and polarizations with their numbers, whatever the order of antennas in the metafits file. The axis of polarizations is xx, yy, xy, yx.", "quantifier": "all orders of the 128 antennas in the metafits file, all signals", "why_tests_cant": "Inputs are shuffled by the filter bank and half of all products is stored; tests compare with a few files made by another program.", "anchors": ["src/pyuvdata/uvdata/corr_fits.pyx:generate_map", "src/pyuvdata/uvdata/corr_fits.pyx:input_output_mapping", "src/pyuvdata/uvdata/mwa_corr_fits.py:MWACorrFITS._read_fits_file", "src/pyuvdata/uvdata/mwa_corr_fits.py:MWACorrFITS.read_mwa_corr_fits", "src/pyuvdata/uvdata/mwa_corr_fits.py:read_metafits"]}
{"id": "C165", "title": "Files of MWA data go to the place of their coarse channel", "statement": "Every file of MWA data goes to the block of its coarse channel, whatever files are given and in whatever order: those of the first correlator are numbered upwards for channels up to 128 and then downwards, those of MWAX by channel. Blocks are in the order of channels. If several files have the same channel, each time has the data of the file that has that time. Frequencies of a block are those of its coarse channel, and channels of a window are one width apart.", "quantifier": "all lists of coarse channels, all sets of files, all numbers of fine channels", "why_tests_cant": "File numbers depend on channels in two ways and files can be missing; tests have files of one observation with consecutive channels.", "anchors": ["src/pyuvdata/uvdata/mwa_corr_fits.py:MWACorrFITS.read_mwa_corr_fits", "src/pyuvdata/uvdata/mwa_corr_fits.py:MWACorrFITS._read_fits_file", "src/pyuvdata/uvdata/mwa_corr_fits.py:read_metafits"]}
{"id": "C166", "title": "Flags of MWA data are those that were asked for", "statement": "flag_init is accepted exactly if the width of edges and the times at start and end are multiples of the channel width and of the integration time. It flags exactly the fine channels that begin less than the width from an edge of their coarse channel, the middle one if asked for, and integrations at start and end. With start_flag=\"goodtime\" exactly the integrations that begin before the good time are flagged at the start. Times that no file of a coarse channel has are flagged there, or in all channels if flags are spread, and zero. Flags of flag files are added, cut at the end if longer than the data and put at the end if shorter.", "quantifier": "all widths, times, numbers of channels and sets of files", "why_tests_cant": "Channels are counted from both sides of the band and times rounded; tests have the default widths.", "anchors": ["src/pyuvdata/uvdata/mwa_corr_fits.py:MWACorrFITS.flag_init", "src/pyuvdata/uvdata/mwa_corr_fits.py:MWACorrFITS._read_fits_file", "src/pyuvdata/uvdata/mwa_corr_fits.py:MWACorrFITS._read_flag_file", "src/pyuvdata/uvdata/mwa_corr_fits.py:MWACorrFITS.read_mwa_corr_fits", "src/pyuvdata/uvdata/mwa_corr_fits.py:read_metafits"]}
{"id": "C167", "title": "Antennas with small autocorrelations are flagged", "statement": "If the Van Vleck correction is asked for, data of an antenna are flagged where an autocorrelation of it is not zero and at most half of channel width times integration time; with flag_small_auto_ants=True all data of the antenna are flagged, and removed if flagged antennas are removed.", "quantifier": "all data, all numbers of times, antennas and channels, with or without removal of antennas", "why_tests_cant": "Three keywords interact; tests look at the number of antennas after removal.", "anchors": ["src/pyuvdata/uvdata/mwa_corr_fits.py:MWACorrFITS._flag_small_auto_ants", "src/pyuvdata/uvdata/mwa_corr_fits.py:MWACorrFITS._apply_corrections", "src/pyuvdata/uvdata/mwa_corr_fits.py:MWACorrFITS.read_mwa_corr_fits"]}
{"id": "C168", "title": "Corrections of MWA data undo what the correlator did", "statement": "Digital gains, the bandpass of coarse channels and delays of cables are taken out of each visibility with the values of its own antennas, coarse channel, fine channel and frequency. The Van Vleck correction uses the sigmas of the feeds of the polarization of the visibility; by approximation it is a sum of the first three odd Chebyshev polynomials with coefficients interpolated between the neighbours of both sigmas, otherwise the solution for the size of each part with its sign; values are changed only where they and both sigmas are not zero.", "quantifier": "all gains, bandpasses, cables and visibilities", "why_tests_cant": "Tests compare with results of other programs for a few files.", "anchors": ["src/pyuvdata/uvdata/mwa_corr_fits.py:MWACorrFITS._correct_coarse_band", "src/pyuvdata/uvdata/mwa_corr_fits.py:MWACorrFITS._apply_corrections", "src/pyuvdata/uvdata/mwa_corr_fits.py:MWACorrFITS.correct_cable_length", "src/pyuvdata/uvdata/mwa_corr_fits.py:MWACorrFITS.van_vleck_correction", "src/pyuvdata/uvdata/mwa_corr_fits.py:van_vleck_crosses_int", "src/pyuvdata/uvdata/mwa_corr_fits.py:van_vleck_crosses_cheby", "src/pyuvdata/uvdata/corr_fits.pyx:van_vleck_cheby", "src/pyuvdata/uvdata/corr_fits.pyx:get_cable_len_diffs"]}
{"id": "C169", "title": "A selection on reading a Miriad file keeps what was asked for", "statement": "read of a Miriad file with antenna_nums, bls, time_range and polarizations gives exactly the records that meet all of them: both antennas are in the list, the pair is one of the pairs in either direction with its polarization (conjugated if the direction is reversed), the middle of the integration is within the range, the polarization is in the list. It is an error if there are none.", "quantifier": "all requests, all files", "why_tests_cant": "The selection is a list of clauses joined by \"or\" in a C library; tests use one keyword at a time with a few antennas.", "anchors": ["src/pyuvdata/uvdata/miriad.py:Miriad.read_miriad", "src/pyuvdata/uvdata/aipy_extracts.py:uv_selector", "src/pyuvdata/uvdata/aipy_extracts.py:ij2bl", "src/pyuvdata/uvdata/aipy_extracts.py:bl2ij", "src/pyuvdata/uvdata/src/uvio.c:uvselect_c", "src/pyuvdata/uvdata/src/uvio.c:uvread_select", "src/pyuvdata/uvdata/src/miriad_wrap.pyx:MKBL", "src/pyuvdata/uvdata/src/miriad_wrap.pyx:GETI", "src/pyuvdata/uvdata/src/miriad_wrap.pyx:GETJ"]}
{"id": "C170", "title": "Rows survive Miriad files", "statement": "An object that is written to a Miriad file and read again has the same polarizations and the same rows, with times, lengths of integrations, LSTs, antennas, uvw coordinates, data, flags and sample counts, in ascending order. Any file is read so that each record is found in a row of its time and antennas at the place of its polarization.", "quantifier": "all objects, all files", "why_tests_cant": "Records of rows are told apart by texts of their times and antennas; tests have rows with all polarizations.", "anchors": ["src/pyuvdata/uvdata/miriad.py:Miriad.read_miriad", "src/pyuvdata/uvdata/miriad.py:Miriad.write_miriad"]}
{"id": "C171", "title": "Antennas survive Miriad files", "statement": "Numbers, names and positions of the antennas of a telescope that are written to a Miriad file are read again: each antenna has the position it had.", "quantifier": "all lists of antennas", "why_tests_cant": "Positions are stored by number with zeros for missing numbers; tests have numbers with gaps or in ascending order.", "anchors": ["src/pyuvdata/uvdata/miriad.py:Miriad.write_miriad", "src/pyuvdata/uvdata/miriad.py:Miriad._load_antpos", "src/pyuvdata/uvdata/src/miriad_wrap.pyx:_get_d_type"]}
{"id": "C172", "title": "Frequencies survive Miriad files", "statement": "Frequencies, channel widths and spectral windows that are written to a Miriad file are read again, for ascending and descending frequencies.", "quantifier": "all numbers of windows and channels, all frequencies and widths", "why_tests_cant": "Only the first frequency and a step with the sign of the direction are stored; tests have windows of many channels.", "anchors": ["src/pyuvdata/uvdata/miriad.py:Miriad.write_miriad", "src/pyuvdata/uvdata/miriad.py:Miriad._load_miriad_variables"]}
{"id": "C173", "title": "Extra keywords survive Miriad files", "statement": "Extra keywords that are written to a Miriad file are read again with the same values, and no others.", "quantifier": "all dictionaries of keywords", "why_tests_cant": "Names are cut and values stored in the types of the format; tests have one keyword of each type.", "anchors": ["src/pyuvdata/uvdata/miriad.py:Miriad.write_miriad", "src/pyuvdata/uvdata/miriad.py:Miriad._load_miriad_variables", "src/pyuvdata/uvdata/miriad.py:Miriad._read_miriad_metadata", "src/pyuvdata/uvdata/src/uvio.c:uvputvr_c", "src/pyuvdata/uvdata/src/miriad_wrap.pyx:_wrvr"]}
{"id": "C174", "title": "A new object of flags has an entry for everything in the data", "statement": "from_uvdata and from_uvcal (and UVFlag called with such an object) give an object with the frequencies, windows, polarizations, telescope, keywords and file names of the data. It has a row for each row, or an entry for each antenna, with no flags or with metrics 0 and weights 1; with copy_flags it has the flags of the data and is in the mode of flags whatever mode was asked for. A waterfall has the distinct times in order, each with the LST of its first row. The history tells what was made, the version and the text that was given. Another mode, a waterfall with copied flags and wide-band calibrations are refused. What the object was before does not matter.", "quantifier": "all data, all modes, all keywords, all earlier states of the object", "why_tests_cant": "Tests look at shapes for one file.", "anchors": ["src/pyuvdata/uvflag/uvflag.py:UVFlag.from_uvdata", "src/pyuvdata/uvflag/uvflag.py:UVFlag.from_uvcal", "src/pyuvdata/uvflag/uvflag.py:UVFlag._set_mode_flag", "src/pyuvdata/uvflag/uvflag.py:UVFlag.clear_unused_attributes"]}
{"id": "C175", "title": "Files of flags of all ages are read", "statement": "An object of flags that is written and read again is the same with the name of the file, and its file would be the same again. Files of older versions are read as well: data with an axis for windows lose it, counts that are missing are those of the arrays, a missing window is 0, missing widths are positive and are the steps of the frequencies, missing antennas are those with data, named by their numbers. Files of another type or mode are refused. The text given is added to the history, and the telescope has the name that was given.", "quantifier": "all objects, all files, all sets of missing entries", "why_tests_cant": "Tests delete one entry at a time from one file.", "anchors": ["src/pyuvdata/uvflag/uvflag.py:UVFlag.read", "src/pyuvdata/uvflag/uvflag.py:UVFlag.write"]}
{"id": "C176", "title": "Lists of files and of objects are read alike and added", "statement": "UVFlag and read with a list read or make each entry with the keywords that were given and add them in order.", "quantifier": "all lists, all keywords", "why_tests_cant": "Tests give lists of two files without keywords.", "anchors": ["src/pyuvdata/uvflag/uvflag.py:UVFlag.__init__", "src/pyuvdata/uvflag/uvflag.py:UVFlag.read"]}
{"id": "C177", "title": "Packing of MIR visibilities keeps flags and 14 bits", "statement": "Visibilities that are packed into 16 bit integers with a common exponent and unpacked have the same flags. Flagged channels come back as 0 with weight 0, others with weight 1. Real and imaginary parts are cut towards zero to a grid that is finer than 1/2**14 of the largest part. Packed values fit into 16 bits. Packed data that are unpacked and packed again stay the same.", "quantifier": "all spectra of any length with all values and flags, all exponents", "why_tests_cant": "Errors depend on the largest value in a spectrum; tests compare one file with tolerances.", "anchors": ["src/pyuvdata/uvdata/mir_parser.py:MirParser._convert_vis_to_raw", "src/pyuvdata/uvdata/mir_parser.py:MirParser._convert_raw_to_vis"]}
{"id": "C178", "title": "Averaging of MIR channels is a weighted mean", "statement": "rechunk gives channels that are the weighted means of as many old channels that are not flagged, flagged if these have no weight, with the mean of the weights, or their sum when system temperatures are applied. It fails exactly if the factor does not divide the number of channels. Averaging twice is averaging by the product. Each record is averaged by the factor of its own band.", "quantifier": "all spectra, weights, flags and factors, all orders of records", "why_tests_cant": "Factors, flags and weights interact; tests average one file by a few factors.", "anchors": ["src/pyuvdata/uvdata/mir_parser.py:MirParser._rechunk_data", "src/pyuvdata/uvdata/mir_parser.py:MirParser._rechunk_raw", "src/pyuvdata/uvdata/mir_parser.py:MirParser.rechunk", "src/pyuvdata/uvdata/mir_parser.py:MirParser._check_data_index"]}
{"id": "C179", "title": "System temperatures are applied once and can be undone", "statement": "apply_tsys multiplies values by 2*jypk*T and weights by the number of samples over the square of that, whether T is from the weights of the table or from the detectors. It is refused when it was applied before, and undoing it when it was not; undoing gives values, flags and weights back. Records without weight, width, time or with a temperature that is missing, not positive or too large are flagged and otherwise the same. Averaging channels before or after gives the same.", "quantifier": "all spectra, temperatures, widths, times and gains; the square root is a parameter", "why_tests_cant": "Tests compare with the same formula for one file.", "anchors": ["src/pyuvdata/uvdata/mir_parser.py:MirParser.apply_tsys"]}
{"id": "C180", "title": "Loading of MIR data gives what was asked for", "statement": "load_data leaves visibilities or packed data of exactly the records that are selected, in the order of the table, and never both. Their values are those of the file whatever was loaded before, with system temperatures and gains as asked for.", "quantifier": "all states that earlier calls can leave, all selections and keywords", "why_tests_cant": "Data that are loaded already are used in several ways; tests start from few states.", "anchors": ["src/pyuvdata/uvdata/mir_parser.py:MirParser.load_data", "src/pyuvdata/uvdata/mir_parser.py:MirParser.unload_data", "src/pyuvdata/uvdata/mir_parser.py:MirParser._downselect_data"]}
{"id": "C181", "title": "Packed MIR files are written, scanned and read at the right bytes", "statement": "Spectra that are written to a packed file are read again with the same exponents and values, whatever was in memory. Scanning the headers of a written file gives the places that the table gives; of a file that is cut off it gives exactly the records that are complete. Reading any choice of integrations in any order reads each from its own start.", "quantifier": "all tables, integrations of all sizes, all orders and gaps, all lengths of cut off files", "why_tests_cant": "Places are sums over all earlier records; tests read one file in order.", "anchors": ["src/pyuvdata/uvdata/mir_parser.py:MirParser._read_packdata", "src/pyuvdata/uvdata/mir_parser.py:MirParser._make_packdata", "src/pyuvdata/uvdata/mir_parser.py:MirParser._scan_int_headers", "src/pyuvdata/uvdata/mir_parser.py:MirParser._write_cross_data", "src/pyuvdata/uvdata/mir_meta_data.py:MirMetaData._generate_recpos_dict", "src/pyuvdata/uvdata/mir_meta_data.py:MirMetaData._recalc_dataoff"]}
{"id": "C182", "title": "Groups of MIR rows are complete and in order", "statement": "group_by gives one group for each set of values that occurs, in increasing order (compared from the last field), each with all rows that have the values, in the order of the table.", "quantifier": "all tables and fields", "why_tests_cant": "Tests group one table.", "anchors": ["src/pyuvdata/uvdata/mir_meta_data.py:MirMetaData.group_by"]}
{"id": "C183", "title": "Values of a CST file are put at their angles", "statement": "read_cst_beam puts the value of each row of a CST file at the zenith angle and azimuth of this row; axes are the angles of the file in radians. Power beams hold squares of the magnitude, and if this is the magnitude of both components of the field, the power is the sum of squares of the field that is read from the same file. Files that are not on a regular grid are refused.", "quantifier": "all grids and values, all positions and units of columns; spacing within the tolerances", "why_tests_cant": "Tests read files of one order and check sizes; a value at a wrong angle looks like any other beam.", "anchors": ["src/pyuvdata/uvbeam/cst_beam.py:CSTBeam.read_cst_beam", "src/pyuvdata/utils/tools.py:_test_array_constant_spacing"]}
{"id": "C184", "title": "The second polarization of a CST beam is the first one turned by a right angle", "statement": "With rotate_pol the second polarization has at each azimuth the value that the first has a right angle before, at the same zenith angle, or the file is refused. On a whole circle of equal steps the rotation succeeds exactly if the number of steps is a multiple of four; a circle with both 0 and 360 degrees is refused. Labels are those of the other feed, in the order of the data.", "quantifier": "all files that are accepted, all numbers of steps, all tolerances that are smaller than a quarter of a step", "why_tests_cant": "Tests use one number of azimuths.", "anchors": ["src/pyuvdata/uvbeam/cst_beam.py:CSTBeam.read_cst_beam"]}
{"id": "C185", "title": "Columns and frequencies of CST files are found in their texts", "statement": "Columns are found by their names whatever letters are large and whatever blanks are there; a power beam needs exactly one column Abs(E) or Abs(V). Without a frequency, it is the number before the last Hz in the name of the file, in the unit before Hz.", "quantifier": "all texts around the number, all numbers of digits, all headers without nested brackets", "why_tests_cant": "The regular expression meets any text; tests use two names.", "anchors": ["src/pyuvdata/uvbeam/cst_beam.py:CSTBeam.name2freq", "src/pyuvdata/uvbeam/cst_beam.py:CSTBeam.read_cst_beam"]}
{"id": "C186", "title": "Each CST file is read with its own frequency and feed", "statement": "For lists of files, or a settings file, each file is read with the frequency and feed at its own position, and the beams are added; single values are used for all; lists of other lengths are refused. With frequency_select exactly the files of these frequencies are read, and a frequency without file is refused. Unless said otherwise rotation is used exactly if all feeds are the same. Keywords override the settings.", "quantifier": "all lists of files, frequencies and feeds, all selections, any way to read and add", "why_tests_cant": "Lists are cut and matched by position; tests read two files.", "anchors": ["src/pyuvdata/uvbeam/uvbeam.py:UVBeam.read_cst_beam", "src/pyuvdata/uvbeam/uvbeam.py:UVBeam._read_cst_beam_yaml"]}
{"id": "C187", "title": "The beam of an MWA tile is the sum of the fields of its dipoles", "statement": "read_mwa_beam gives, for each feed, frequency and direction, the sum over dipoles of amplitude times phase of the delay times the field of this dipole alone. The field of a dipole is the sum over its spherical waves, each with the coefficient, order and degree of its own row in the file, also if dipoles have different numbers of waves.", "quantifier": "all files with complete tables, all numbers of dipoles, feeds and frequencies, all degrees, delays, amplitudes and directions; any Legendre and trigonometric functions", "why_tests_cant": "Coefficients are matched to Legendre values by position only; tests compare one file with saved numbers.", "anchors": ["src/pyuvdata/uvbeam/mwa_beam.py:MWABeam._get_beam_modes", "src/pyuvdata/uvbeam/mwa_beam.py:MWABeam._get_response", "src/pyuvdata/uvbeam/mwa_beam.py:P1sin_array", "src/pyuvdata/uvbeam/mwa_beam.py:P1sin", "src/pyuvdata/uvbeam/mwa_beam.py:MWABeam.read_mwa_beam"]}
{"id": "C188", "title": "Each delay and amplitude is used for the dipole of its position", "statement": "The k-th delay and amplitude given to read_mwa_beam belong to the k-th dipole, counted by the numbers in the file.", "quantifier": "all files whose dipoles are numbered", "why_tests_cant": "Sorting of texts and of numbers agree for a few dipoles.", "anchors": ["src/pyuvdata/uvbeam/mwa_beam.py:MWABeam._read_metadata", "src/pyuvdata/uvbeam/mwa_beam.py:MWABeam.read_mwa_beam"]}
{"id": "C189", "title": "Terminated dipoles of the MWA are silent", "statement": "A dipole with delay 32 adds nothing to the beam, whatever its amplitude. Delays above 32 and arrays of another shape are refused. Without amplitudes all are one, without delays all are zero. The arrays of the caller stay as they were.", "quantifier": "all delays and amplitudes, all files", "why_tests_cant": "Tests read once for each array.", "anchors": ["src/pyuvdata/uvbeam/mwa_beam.py:MWABeam.read_mwa_beam"]}
{"id": "C190", "title": "Frequencies, directions and components of an MWA beam are what the object says", "statement": "A read with freq_range has exactly the frequencies of the file within the range, ends included, and the same fields at them as without it; an empty range is refused. Zenith angles and azimuths go in steps of one pixel from zero to the horizon, and once around; components of the field are along the directions given by the basis vectors.", "quantifier": "all files, ranges and resolutions", "why_tests_cant": "Tests use one resolution; components are only compared with saved numbers.", "anchors": ["src/pyuvdata/uvbeam/mwa_beam.py:MWABeam.read_mwa_beam", "src/pyuvdata/uvbeam/mwa_beam.py:P1sin"]}
{"id": "C191", "title": "Shifts of MIR spectra by whole channels move data, flags and weights together", "statement": "A shift by a whole number of channels moves every channel with its flag and weight by exactly that number, in either direction and also beyond the band; channels with nothing to take are zero and flagged. Shifts within the tolerance of a whole number, and all with the nearest kernel, are done so, at most the tolerance or half a channel from the shift asked. Tolerances outside 0 to 1/2 are refused.", "quantifier": "all shifts, tolerances, kernels and spectra", "why_tests_cant": "Slices with negative ends depend on direction and size of the shift; tests try a few shifts.", "anchors": ["src/pyuvdata/uvdata/mir_parser.py:MirParser._generate_chanshift_kernel", "src/pyuvdata/uvdata/mir_parser.py:MirParser._chanshift_vis", "src/pyuvdata/uvdata/mir_parser.py:MirParser.redoppler_data"]}
{"id": "C192", "title": "Shifts of MIR spectra by fractions of a channel interpolate at the right place", "statement": "After a shift by s channels, channel k holds the interpolated value of the old spectrum at k - s: on the line between the channels around it for the linear kernel, by cubic convolution (Keys) for the cubic kernel, the default of redoppler_data. Weights are interpolated in the same way.", "quantifier": "all shifts, all spectra that are longer than the shift and kernel, all channels whose neighbours are good", "why_tests_cant": "Tests compare kernels with saved numbers; a mirrored kernel has the same sum and looks as smooth.", "anchors": ["src/pyuvdata/uvdata/mir_parser.py:MirParser._generate_chanshift_kernel", "src/pyuvdata/uvdata/mir_parser.py:MirParser._chanshift_vis", "src/pyuvdata/uvdata/mir_parser.py:MirParser.redoppler_data"]}
{"id": "C193", "title": "Flags follow shifts of MIR spectra by fractions of a channel", "statement": "After a shift with a kernel exactly those channels are flagged that need a flagged channel or one outside the band, and these have zero data and weight. With flag_adj off flags are not spread to neighbours, but flagged channels stay flagged.", "quantifier": "all kernels of even length, shifts, spectra and flags", "why_tests_cant": "Flags travel as NaN through a convolution; tests have few flags.", "anchors": ["src/pyuvdata/uvdata/mir_parser.py:MirParser._chanshift_vis", "src/pyuvdata/uvdata/mir_parser.py:MirParser.redoppler_data"]}
{"id": "C194", "title": "redoppler_data shifts each MIR spectrum by its own frequency", "statement": "Each spectrum is shifted by its own frequency shift over its own channel width, with sign, and keeps its number. If the shifts are whole numbers of channels, each channel then holds what was seen at its frequency plus the frequency shift, for both signs of the channel width.", "quantifier": "all numbers of spectra, frequency shifts and channel widths other than zero", "why_tests_cant": "The sign turns twice, with the shift and with the channel width; tests use one sideband.", "anchors": ["src/pyuvdata/uvdata/mir_parser.py:MirParser.redoppler_data", "src/pyuvdata/uvdata/mir_parser.py:MirParser._chanshift_vis"]}
{"id": "C195", "title": "COMPASS solutions calibrate each MIR spectrum by the gains of its antennas", "statement": "With COMPASS bandpasses each visibility is divided by the gain of its first antenna and the conjugate of the gain of its second antenna, at its receivers, sideband, window and channel, and weights by the squares of both SEFDs. Channels without a gain or SEFD are flagged, with zero data or weight, and no others are; records that COMPASS does not have are flagged everywhere.", "quantifier": "all files that list antennas and windows once, all records, gains and channels", "why_tests_cant": "Gains are matched by keys of four and six numbers; tests have one receiver and few antennas.", "anchors": ["src/pyuvdata/uvdata/mir_parser.py:MirParser._read_compass_solns", "src/pyuvdata/uvdata/mir_parser.py:MirParser._apply_compass_solns", "src/pyuvdata/uvdata/mir_parser.py:MirParser.read_compass_solns"]}
{"id": "C196", "title": "COMPASS flags reach the spectra that they were made for", "statement": "With COMPASS flags a record gets the flags of its own time (within half a second), baseline, receivers and window, bit by bit in the order of channels; a record without them gets the flags that either of its antennas has for all times; others are left as they are. Flags are added, never removed, and data and weights stay.", "quantifier": "all files, times, records and channels", "why_tests_cant": "Times, baselines and windows are matched by position in three loops; tests compare a few bits.", "anchors": ["src/pyuvdata/uvdata/mir_parser.py:MirParser._read_compass_solns", "src/pyuvdata/uvdata/mir_parser.py:MirParser._apply_compass_solns", "src/pyuvdata/uvdata/mir_parser.py:MirParser.read_compass_solns"]}
{"id": "C197", "title": "Calibrations are kept by CASA tables", "statement": "Writing a UVCal object with write_ms_cal and reading it again gives at each antenna number, frequency, time and Jones term the same gain or delay, flag and quality (one if there was none); channels are then ordered by spectral window and antennas as in the file. Antennas of the telescope without data come back as zeros that are flagged. A single Jones term, which is padded for CASA, comes back as one.", "quantifier": "all numbers and orders of antennas, spectral windows, channels and times that are further apart than the tolerance; gains and delays, wide band or not", "why_tests_cant": "Rows are made by repeating, tiling and reshaping; tests have one spectral window or one time.", "anchors": ["src/pyuvdata/uvcal/ms_cal.py:MSCal.write_ms_cal", "src/pyuvdata/uvcal/ms_cal.py:MSCal.read_ms_cal", "src/pyuvdata/utils/io/ms.py:write_ms_spectral_window", "src/pyuvdata/utils/io/ms.py:read_ms_spectral_window"]}
{"id": "C198", "title": "Times, scans and reference antennas are kept by CASA tables", "statement": "Each time of a UVCal object that is written with write_ms_cal and read again has the same time or range of times, integration time and scan. A single reference antenna comes back by its name, several ones by their numbers, and one that is not an antenna of the telescope as unknown.", "quantifier": "all numbers of times, antennas and spectral windows; exact arithmetic", "why_tests_cant": "Values of times are repeated for all antennas and tiled for all windows; tests use objects with few of them.", "anchors": ["src/pyuvdata/uvcal/ms_cal.py:MSCal.write_ms_cal", "src/pyuvdata/uvcal/ms_cal.py:MSCal.read_ms_cal"]}
{"id": "C199", "title": "write_ms_cal keeps everything or refuses", "statement": "More than two Jones terms and gains with the convention multiply are refused. Total qualities and extra keywords can be written and are read again.", "quantifier": "all objects", "why_tests_cant": "Tests write the total quality of no object, and compare after dropping extra keywords.", "anchors": ["src/pyuvdata/uvcal/ms_cal.py:MSCal.write_ms_cal", "src/pyuvdata/uvcal/ms_cal.py:MSCal.read_ms_cal"]}
{"id": "C200", "title": "Rows of CASA tables are put at their times", "statement": "read_ms_cal puts rows of the same time together, and those of different times apart; rows whose times differ by less than the tolerance belong to one time. Each row is put at a time of the result.", "quantifier": "all tables and orders of rows", "why_tests_cant": "Tests have files with at most one pair of close times.", "anchors": ["src/pyuvdata/uvcal/ms_cal.py:MSCal.read_ms_cal"]}
{"id": "C201", "title": "Files of FHD are told apart by polarization", "statement": "read_fhd takes the polarization of a file from the end of its name, in letters of any case. Two files of one polarization, files of other names, and files of data beside files of models are refused. The result has the polarizations of the files in the order xx, yy, xy, yx; its data are the conjugates of the file of this polarization, and flags and numbers of samples are those of the array of weights which the observation gives this polarization: flagged exactly if the weight is not positive, and its absolute value. The order of files does not matter.", "quantifier": "all lists and names of files and arrays; files of one observation for the order", "why_tests_cant": "Data, weights and files are in three different orders; tests read them in one.", "anchors": ["src/pyuvdata/uvdata/fhd.py:FHD.read_fhd"]}
{"id": "C202", "title": "Times, antennas and coordinates of FHD data", "statement": "Each baseline-time of FHD data has the time whose range of offsets it is in, the last one is without an end. Tiles are counted from one in the list of antennas. Conjugated data belong to reversed coordinates: a visibility of real sources keeps its sources.", "quantifier": "all offsets in order, tiles, sources and phases that are conjugated when they are reversed; exact arithmetic", "why_tests_cant": "Ranges are assigned one after the other; tests compare with other readers up to tolerances.", "anchors": ["src/pyuvdata/uvdata/fhd.py:FHD.read_fhd"]}
{"id": "C203", "title": "Calibrations of FHD", "statement": "read_fhd_cal gives the gains of a file for each Jones term, with the residuals added exactly if raw is true; flags are those of antennas and channels that are not used; the range of times has all used times and no more than a quarter of an integration beside them. It sets the conventions of gains and of polarizations.", "quantifier": "all files; exact arithmetic", "why_tests_cant": "Tests compare arrays of two files and do not look at the convention of polarizations.", "anchors": ["src/pyuvdata/uvcal/fhd_cal.py:FHDCal.read_fhd_cal"]}
{"id": "C204", "title": "UVCal.fast_concat is plain concatenation", "statement": "UVCal.fast_concat puts objects one after the other along antennas, times, Jones terms, channels or windows: each solution, flag and quality is found where the part of its object begins, under the antenna, frequency, window, time or Jones term it had. Objects without qualities get zeros if another one has them; whole-array qualities are dropped if antennas are added. Labels along other axes match those of the first object.", "quantifier": "all axes, numbers of objects and sizes of arrays; any comparison of real numbers", "why_tests_cant": "Every axis has its own list of arrays to extend; tests concatenate two or three objects of one kind.", "anchors": ["src/pyuvdata/uvcal/uvcal.py:UVCal.fast_concat"]}
{"id": "C205", "title": "UVCal.fast_concat combines what belongs together and refuses the rest", "statement": "Objects whose labels along other axes do not match are refused, and an object that is refused is left as it was.", "quantifier": "all objects and axes", "why_tests_cant": "Tests check the error message but not the object after it, and change one parameter at a time.", "anchors": ["src/pyuvdata/uvcal/uvcal.py:UVCal.fast_concat"]}
{"id": "C206", "title": "Concatenated channels keep the Jones terms of their windows", "statement": "After UVCal.fast_concat along the frequency axis of objects with one Jones term for each spectral window, each channel has the Jones term that it had before.", "quantifier": "all objects and windows", "why_tests_cant": "Tests have disjoint windows in increasing order.", "anchors": ["src/pyuvdata/uvcal/uvcal.py:UVCal.fast_concat"]}
{"id": "C207", "title": "Solutions are found by antenna and Jones term", "statement": "get_gains, get_flags and get_quality of a UVCal object give the values of the antenna and Jones term that are named, by number or by name with regard to the orientation of feeds, together or apart, for all frequencies and times; an antenna alone gives all Jones terms, and the axis of these is dropped exactly if there is one and this was asked for. What is not there is refused. get_time_array gives centers of time ranges.", "quantifier": "all objects, antennas and Jones terms", "why_tests_cant": "Positions are found as the nearest number; tests use antennas that are their own positions.", "anchors": ["src/pyuvdata/uvcal/uvcal.py:UVCal.get_gains", "src/pyuvdata/uvcal/uvcal.py:UVCal.get_flags", "src/pyuvdata/uvcal/uvcal.py:UVCal.get_quality", "src/pyuvdata/uvcal/uvcal.py:UVCal.get_time_array"]}
{"id": "C208", "title": "Parts of calibration files are what select would keep", "statement": "Reading a part of a calh5 file gives the labels, gains, flags and qualities that select keeps of the object that was written (with qualities in 32 bits), on all axes at once; a selection that select accepts and that leaves something on every axis is accepted by the reader.", "quantifier": "all objects, sizes, selections by antenna, time, frequency, channel, window and Jones term; the axis that is read first is the one that loses most", "why_tests_cant": "Which arrays are read in which order depends on fractions of what is selected; tests compare a handful of selections.", "anchors": ["src/pyuvdata/uvcal/calh5.py:CalH5._get_data", "src/pyuvdata/uvcal/calh5.py:CalH5.read_calh5", "src/pyuvdata/uvcal/calh5.py:CalH5.write_calh5", "src/pyuvdata/uvcal/uvcal.py:UVCal.select"]}
{"id": "C209", "title": "Headers of calibration files keep all parameters", "statement": "An object written with write_calh5 and read again has the same parameters: numbers, counts, texts, names of antennas, catalog and keywords; the history has the version of the program, and what is known about the telescope is set if it was not set. The names that are written are the names that are read.", "quantifier": "all objects that have their required parameters, with names without slashes and texts without zero bytes; any values", "why_tests_cant": "More than fifty names are written and read in two places; tests compare objects in which most of them are not set.", "anchors": ["src/pyuvdata/uvcal/calh5.py:CalH5._write_header", "src/pyuvdata/uvcal/calh5.py:CalH5._read_header", "src/pyuvdata/telescopes.py:Telescope.write_hdf5_header", "src/pyuvdata/telescopes.py:Telescope.from_hdf5"]}
{"id": "C210", "title": "New calibration objects are accepted exactly if their arguments belong together, and are what was asked for", "statement": "UVCal.new makes an object exactly if its arguments belong together: one entry for each antenna, an orientation of feeds, antennas that exist, times or ranges of times with fitting integration times, frequencies or ranges of frequencies with fitting windows, Jones terms, arrays of the right shape, and for a sky-based calibration a reference antenna and a catalog. The object then has these labels, counts and arrays, sidereal times for its times, and gains of one, delays of zero and no flags where no arrays are given.", "quantifier": "all arguments, arrays of any shape, times and frequencies of an ordered field", "why_tests_cant": "There are hundreds of combinations of arguments; tests make an object for each kind and change one argument at a time.", "anchors": ["src/pyuvdata/uvcal/initializers.py:new_uvcal", "src/pyuvdata/uvcal/uvcal.py:UVCal.check"]}
{"id": "C211", "title": "Calibrations made for visibilities fit these visibilities", "statement": "new_uvcal_from_uvdata makes an object with each time of the visibilities once (with the integration time of a row of this time), the antennas that have data, the channels, or each spectral window with the lowest and highest frequency of its channels, and exactly the feeds of the polarizations as Jones terms; a part of the telescope, by number or name, keeps for each antenna its number, name, position and diameter. Visibilities whose labels fit together are accepted.", "quantifier": "all visibilities and arguments", "why_tests_cant": "Tests compare with one file, in which antennas are in the order of their numbers.", "anchors": ["src/pyuvdata/uvcal/initializers.py:new_uvcal_from_uvdata"]}
{"id": "C212", "title": "New beams are accepted exactly if their arguments belong together, and are what was asked for", "statement": "UVBeam.new makes a beam exactly if its arguments belong together: feeds or polarizations, a healpix map or two axes, frequencies, a normalization, an orientation that is known, and arrays that fit (for phased arrays: at least two elements, with delays, gains and couplings). The beam then has what was given; where nothing is given it has all pixels in ring order, basis vectors along the axes, a bandpass of one, elements without delays that are not coupled to each other, and data of zero.", "quantifier": "all arguments, arrays of any shape, numbers of an ordered field", "why_tests_cant": "Tests make beams of each kind with one set of arguments.", "anchors": ["src/pyuvdata/uvbeam/initializers.py:new_uvbeam", "src/pyuvdata/uvbeam/uvbeam.py:UVBeam.check"]}
{"id": "C213", "title": "Power beams of auto polarizations are real, and fixing them keeps their values", "statement": "UVBeam.check with check_auto_power accepts a power beam exactly if all its values of polarizations that are not cross polarizations are real. With fix_auto_power these are made real by removing their imaginary parts, and values of cross polarizations and real values are kept.", "quantifier": "all power beams, any polarizations and pixels", "why_tests_cant": "Tests add a small imaginary part to a beam of positive values.", "anchors": ["src/pyuvdata/uvbeam/uvbeam.py:UVBeam._check_auto_power", "src/pyuvdata/uvbeam/uvbeam.py:UVBeam._fix_auto_power"]}
{"id": "C214", "title": "Sidereal times belong to their times, and wrong ones are noticed", "statement": "get_lst_for_time gives for each time, whether or not it is repeated and in whatever order, the sidereal time at longitude zero plus the longitude, in one turn; libraries that agree about longitude zero give the same results in hours and in radians. check_lsts_against_times warns exactly if a sidereal time is not close to the one of its time.", "quantifier": "all lists of times, places on Earth or Moon, and skies", "why_tests_cant": "Tests compare with tables for a few times and places.", "anchors": ["src/pyuvdata/utils/times.py:get_lst_for_time", "src/pyuvdata/utils/times.py:check_lsts_against_times"]}
{"id": "C215", "title": "MIR spectra become visibilities of their antennas, times, frequencies and polarizations", "statement": "Reading MIR data puts each spectrum, conjugated and with its flags and weights, at the row of its integration and antennas, at the polarization of its receivers and at the channels of its window: these have the frequencies and widths of the spectrum. Rows have the time, source and (with opposite sign) coordinates of their records, are ordered by integration and antennas, and each comes once. Different windows, sidebands and tunings have different channels, and where there is no spectrum data are flagged. This does not depend on the order of windows or on the blocks in which data are loaded.", "quantifier": "all records that belong together; any number of integrations, antennas, windows and channels", "why_tests_cant": "Tests read three files in which all baselines, two sidebands and the usual codes are there.", "anchors": ["src/pyuvdata/uvdata/mir.py:Mir._init_from_mir_parser", "src/pyuvdata/uvdata/mir.py:Mir._prep_and_insert_data"]}
{"id": "C216", "title": "Sums of MIR tables have each record once, and the one that is used", "statement": "Adding two tables of MIR records gives a table with one record for each header key of either table. For a key of both tables this is the record of the second table if overwriting is asked for, and otherwise the one that is used (not masked), and it is used if one of the two is. The sum is refused exactly if keys are the same though this is excluded, or differ though this is asked for, or if two records of a key differ (both used ones, unless nothing may be overwritten). With discard_flagged, records that are not used are left out.", "quantifier": "all tables with different header keys, any values and masks", "why_tests_cant": "Tests add a few tables that are sorted and have the same length.", "anchors": ["src/pyuvdata/uvdata/mir_meta_data.py:MirMetaData.__add__", "src/pyuvdata/uvdata/mir_meta_data.py:MirMetaData._add_check"]}
{"id": "C217", "title": "MIR data of different files are put together with their own spectra", "statement": "Adding MIR objects of different files is refused exactly if a file is in both or if their scales (jypk) differ and overwriting is not asked for. In the sum all integrations and spectra have different keys, spectra belong to the integrations to which they belonged, and every spectrum is read from the file, integration and position where it is. Spectra that are loaded stay loaded, and with the same record, exactly if both objects have them loaded and they are scaled in the same way.", "quantifier": "all objects with consistent keys, any numbers of integrations, spectra and files", "why_tests_cant": "Tests add objects of the same file or with the same layout, where positions are the same by chance.", "anchors": ["src/pyuvdata/uvdata/mir_parser.py:MirParser.__add__", "src/pyuvdata/uvdata/mir_meta_data.py:MirMetaData._generate_new_header_keys", "src/pyuvdata/uvdata/mir_meta_data.py:MirMetaData._update_fields"]}
{"id": "C218", "title": "Values of MIR tables are read and set for the records that are asked for, and can be given back", "statement": "Reading a field of a MIR table with conditions gives the values of exactly those records that are used (unless all are asked for) and meet all conditions about fields of the table (or one of them, if this is asked for), in their order; conditions are refused only if none is about a field of the table. Header keys give the values of their records in the order of the keys. Setting a value changes these records of this field and nothing else. However many values were set, and whether setting them failed or not, reset_values gives back the values that were there before.", "quantifier": "all tables, fields, conditions, masks, keys and sequences of changes", "why_tests_cant": "Tests read and set a few values of one table and combine conditions only with and.", "anchors": ["src/pyuvdata/uvdata/mir_meta_data.py:MirMetaData._index_query", "src/pyuvdata/uvdata/mir_meta_data.py:MirMetaData.get_value", "src/pyuvdata/uvdata/mir_meta_data.py:MirMetaData.set_value", "src/pyuvdata/uvdata/mir_meta_data.py:MirMetaData.reset_values"]}
{"id": "C219", "title": "Histories survive measurement sets", "statement": "A history that is written to a measurement set and read again has the same lines in the same order: rows of the history table that were made by other programs become rows again with the same entries, and lines of pyuvdata before and after them stay before and after them. A history without such a table comes back unchanged.", "quantifier": "all histories, any number of lines and rows, any text", "why_tests_cant": "Tests write histories with at most one line before the table, and do not compare histories of written files line by line.", "anchors": ["src/pyuvdata/utils/io/ms.py:write_ms_history", "src/pyuvdata/utils/io/ms.py:read_ms_history"]}
{"id": "C220", "title": "Tracks have a row for each time and pair of antennas, with the position for this time", "statement": "uvw_track_generator gives for each time one row for each pair of antennas (or the rows that are given), in the order of times and pairs. The apparent position of a row is that of the position that was given for it (one position for all rows, or one for each time or row), in the frame and epoch that were given, at the time of the row; its baseline coordinates are those of its antennas, time and apparent position, or all three the opposite ones if the positive side is asked for, and then they are on this side.", "quantifier": "all lists of times, positions and pairs, any number of antennas, any functions of astrometry", "why_tests_cant": "Tests use one position and one pair of antennas, or times and pairs of one file, in a frame without an epoch.", "anchors": ["src/pyuvdata/utils/phasing.py:uvw_track_generator", "src/pyuvdata/utils/phasing.py:calc_app_coords"]}
{"id": "C221", "title": "Rows of objects that are read, made or resampled have the apparent positions of their catalog entries", "statement": "When apparent positions are filled in from the phase-center catalog (on reading files that do not have them, in UVData.new, and after resampling in time), each row has the apparent position of the source of its catalog entry, with everything that the entry says about it, at the time and LST of this row, and the position angle of the frame and epoch of the entry there (zero for altaz). Nothing else is changed; rows without an entry are an error. Files that have apparent positions keep them, and get the position angles for these.", "quantifier": "all objects, catalogs, times and sources, any functions of astrometry", "why_tests_cant": "Tests compare one file each, with sources without velocity.", "anchors": ["src/pyuvdata/uvdata/uvdata.py:UVData._set_app_coords_helper"]}
{"id": "C222", "title": "Resampling to a target time averages short rows and cuts long ones", "statement": "resample_in_time changes nothing unless some row is at most half or at least twice the target. With short rows only it averages as downsample_in_time does, with long rows only it cuts as upsample_in_time does; only_downsample and only_upsample leave out the other one. In the end averaged rows are as close to the target as their integrations allow: they are not shorter than the target, except for ragged ends. No observed time is lost when ragged ends are kept.", "quantifier": "all rows, targets, tolerances, options and orders of rows, over any ordered field", "why_tests_cant": "Tests resample one file with one set of integration times.", "anchors": ["src/pyuvdata/uvdata/uvdata.py:UVData.resample_in_time"]}
{"id": "C223", "title": "Telescopes and antennas of Miriad files of other programs are where the file says", "statement": "Reading a Miriad file without antnums: if the antenna positions are from the middle of the Earth, the location of the telescope and the position of each antenna together are the position in the file, turned to its longitude; otherwise antenna positions are those of the file, turned. The antennas are those with a position and those with visibilities, each once; those without a position have the position zero. The telescope is at the latitude, longitude (in either range) and altitude of the file; without an altitude it is where it is known to be (or at the coordinates of the file at the known height); if it is not known, it is at the coordinates of the file, at the mean height of the antennas if their mean is at these coordinates, and at sea level otherwise.", "quantifier": "all files, positions and telescopes, any geodesy", "why_tests_cant": "Tests read one file with and without some of its variables; there are many combinations, and longitudes in one range.", "anchors": ["src/pyuvdata/uvdata/miriad.py:Miriad._load_telescope_coords", "src/pyuvdata/uvdata/miriad.py:Miriad._load_antpos", "src/pyuvdata/uvdata/miriad.py:Miriad._read_miriad_metadata", "src/pyuvdata/utils/coordinates.py:check_surface_based_positions"]}
{"id": "C224", "title": "Combined objects have the names of all their files", "statement": "The filename attribute of an object that is combined from others (by addition, fast_concat, or reading a list of files) has the names of the files of all of them, and is None only if all of them have none. If at least two of them have names, these are in ascending order, each once; if only one has, they stay as they are. The order in which objects are combined, and whether they are combined in groups, does not matter.", "quantifier": "all numbers of objects, all lists of names", "why_tests_cant": "Tests combine two or three objects with one name each.", "anchors": ["src/pyuvdata/utils/tools.py:_combine_filenames", "src/pyuvdata/uvdata/uvdata.py:UVData.fast_concat", "src/pyuvdata/uvcal/uvcal.py:UVCal.fast_concat"]}
{"id": "C225", "title": "Stored masks of MIR objects are restored", "statement": "After save_mask of a MIR object, restore_mask with the same name makes the masks of all tables what they were, whatever has been selected, stored under other names or restored in between. Storing under a name that is used is an error unless overwrite is set, and changes neither the masks of the object nor those of other names. Masks that are restored are masks of the tables that the object has.", "quantifier": "all tables, masks, names and sequences of steps, any update of masks", "why_tests_cant": "Tests store and restore once; sequences of steps are without number.", "anchors": ["src/pyuvdata/uvdata/mir_parser.py:MirParser.save_mask", "src/pyuvdata/uvdata/mir_parser.py:MirParser.restore_mask", "src/pyuvdata/uvdata/mir_parser.py:MirParser._clear_auto", "src/pyuvdata/uvdata/mir_parser.py:MirParser.read"]}
{"id": "C226", "title": "Repaired positions of MIR integrations are those of the file", "statement": "When the positions of integrations in MIR files turn out to be wrong on reading, they are repaired: after this each integration of the object has the position that was found in its file under the number that it has there, integrations that were not found are not looked for any more, and there are no others.", "quantifier": "all numbers of integrations in objects and files, all positions", "why_tests_cant": "Tests repair one file whose numbers are those of the object.", "anchors": ["src/pyuvdata/uvdata/mir_parser.py:MirParser._fix_int_dict"]}
{"id": "C227", "title": "Baseline coordinates of old MIR files become meters", "statement": "Files before version 3 have baseline coordinates in wavelengths of each receiver and sideband, at a frequency that is not known exactly. On reading them (make_v3_compliant) they become meters: if the coordinates of a receiver and sideband are some factor times what they are in meters, the factor is taken out of all of them, even if up to half of the baselines do not have it (since antennas are not where they are thought to be). Nothing else is changed, and coordinates in meters stay as they are. Receivers and sidebands other than 0 and 1 are an error.", "quantifier": "all rows, factors and lengths, over any ordered field", "why_tests_cant": "Tests read one old file whose coordinates all have one factor.", "anchors": ["src/pyuvdata/uvdata/mir_parser.py:MirParser._make_v3_compliant"]}
{"id": "C228", "title": "Online flags of MIR data are added to the flags there are", "statement": "Applying online flags (apply_flags) sets all flags of exactly those records that have an online flag. Flags that were set stay, data, keys and lengths are unchanged, and a second call changes nothing. It fails exactly if data of a record with an online flag are not loaded; the error names the first such record, and those before it have been flagged.", "quantifier": "all records, online flags, loaded data", "why_tests_cant": "Tests apply one flag to one loaded file.", "anchors": ["src/pyuvdata/uvdata/mir_parser.py:MirParser.apply_flags"]}
{"id": "C229", "title": "Receivers of antennas in old MIR files follow from the codes, if they are not recorded", "statement": "On reading files before version 3 the receivers of the antennas, if not recorded, follow from the polarization codes (1: both antennas the second receiver, 2: only antenna 1, 3: only antenna 2, others: neither), and if there are none, from the receiver codes (2 and 3: second receiver). A second conversion changes nothing. Receivers that are recorded are kept.", "quantifier": "all receivers and codes", "why_tests_cant": "Tests read files in which no receivers are recorded, or all of one kind.", "anchors": ["src/pyuvdata/uvdata/mir_parser.py:MirParser._make_v3_compliant"]}
{"id": "C230", "title": "Names of FHD files warn if and only if they are of different runs or data", "statement": "On reading FHD files, those of one run for one set of data give no warning about names. Files in folders of different runs, for different data, without the suffix of their type, or outside the folder of their type, give a warning that says so. The object has the names of all files without folders, those of visibilities first.", "quantifier": "all names of files and folders", "why_tests_cant": "Tests read files of one run, and some with one name changed.", "anchors": ["src/pyuvdata/utils/io/fhd.py:fhd_filenames"]}
{"id": "C231", "title": "MIR records are matched by both of their numbers", "statement": "Selections of MIR data match antennas with baselines by number of the antenna and of the integration, through one number made of both. Exactly the records are kept for which there is another record with both numbers, whatever sizes the types of the numbers have.", "quantifier": "all records, all numbers and types of at most 32 bits", "why_tests_cant": "Tests use small numbers of a few antennas.", "anchors": ["src/pyuvdata/uvdata/mir_meta_data.py:MirMetaData._make_key_mask", "src/pyuvdata/uvdata/mir_parser.py:MirParser._update_filter"]}
{"id": "C232", "title": "The history of FHD data is what their settings file says", "statement": "On reading FHD data with a settings file, the history has a first line, then the lines under the heading ##MAIN, then those under ##COMMAND_LINE, each once and in order, up to the heading ##OBS or else to the end of the file. The user is that of the last line User under ##MAIN, if there are none under ##COMMAND_LINE. With the heading ##OBS, nothing after it matters. Without one of the first two headings, or without a line User, there is an exception.", "quantifier": "all settings files that have each of the headings once before ##OBS, with any number of lines between them", "why_tests_cant": "Tests read one settings file.", "anchors": ["src/pyuvdata/utils/io/fhd.py:get_fhd_history"]}
{"id": "C233", "title": "Codes of MIR data are looked up by number and by text", "statement": "Looking up a code of MIR data (codes_data) gives a dictionary in which every number of the code has its text and every text has its number, also for records that are not selected, or a list of all texts in order. The list is returned if asked for, or by default for a single record of a code that is not an index. There is an error exactly if no selected record has the code.", "quantifier": "all records, names, codes, numbers and selections", "why_tests_cant": "Tests look up a few codes of one file.", "anchors": ["src/pyuvdata/uvdata/mir_meta_data.py:MirCodesData.get_codes", "src/pyuvdata/uvdata/mir_meta_data.py:MirCodesData.get_code_names"]}
