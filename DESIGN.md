# Design

Subject: pyuvdata at the pinned commit in `/repo` (Python and Cython sources, read as text, never run).
The model and the proofs are in `lean/Verif`. `properties.jsonl` lists the properties, `MANIFEST.json`
maps each property to theorem names, and `seeded/LOG.jsonl` records the experiments in which the model
was edited to contain a realistic bug.

## Trusted base

* Lean 4.33.0's kernel and the Lean/Mathlib definitions used in statements (lists, naturals, integers,
  rationals, reals, complex numbers, finite sets, permutations, sortedness).
* Axioms: every property theorem depends on at most `propext`, `Classical.choice` and `Quot.sound`.
  There are no axioms of our own, no `sorry`, no `native_decide`, no `bv_decide`.
* The reading of the Python source. Each definition of the model cites file and lines; nothing ties the
  model to the code mechanically. Every simplification is named in the comment of the definition.
* The meaning of the numpy primitives used by the code (`take`, `unique`, `argsort`, `isin`, `where`,
  `concatenate`, basic and fancy indexing), written once in `Verif/Np.lean` and cited from there.

## Modelling conventions

* A numpy array along one axis is a `List`. Multi-axis arrays are nested lists or, where only one axis is
  touched, a list of opaque rows (the theorem is then polymorphic in the row type).
* Objects are structures of arrays, one list per attribute, exactly as in the code: attributes are
  permuted, filtered and concatenated separately, so a forgotten attribute is visible in the model.
* Raised exceptions are values (`Except` or `Option`). Warnings are not modelled.
* Integers are `Nat`/`Int`, with explicit reduction modulo 2^64 where the code uses `uint64`.
* Floating point numbers are modelled by exact rationals, by real numbers (where sines and cosines
  occur), by an arbitrary ordered field or by an arbitrary linear order. Rounding is
  outside the model; statements about floats are statements about the exact arithmetic.
* In-place mutation is modelled by returning the new object.

## Not modelled

File formats (bytes on disk), astropy/ERFA astronomy, plotting, warnings, timing, memory use, threads
and the behaviour of h5py/casacore. Logic around them is modelled where a property needs it.

## Properties that are false of the code

Where reading the code showed a property to be false, the negation is proved on a concrete witness
(theorem name ending in `_counterexample`), the strongest true statement is kept under a name ending in
`_partial`, and the note of the property explains the difference.


## What is modelled

For each module of the model, the text at its head: which functions and lines it is about and what is simplified.

### `Verif/Add/Axis.lean`

One axis of `UVData.__add__`, uvdata.py 5231–5821: how positions of the two objects are matched.

`A` are the labels of this object along the axis, `B` those of the other one. For baseline-times a label is the string made
of the formatted time and the baseline number (lines 5318–5335), for channels the pair of spectral window and frequency, for
polarizations the polarization number.

### `Verif/Add/Model.lean`

Model of `UVData.__add__`, uvdata.py 5231–5821, for objects with data.

* An array over baseline-times, channels and polarizations is a function of three positions; its shape is that of the label
  lists.
* A baseline-time label is what the code makes of time and baseline number, lines 5320–5335.
* Of the arrays along the baseline-time axis three are kept (`uvw`, `lst`, `pc`); the others are treated by the code in the
  same way.
* `np.argsort` is any sorting function (`Argsort`).
* Left out: `check`, the comparison of `vis_units`, `telescope` and of the metadata of shared samples (they can only raise),
  merging of phase center catalogs (modelled in `Verif.PhaseCat`), flexible polarizations, history, file names, counts.

### `Verif/AntLike/Model.lean`

Antennas in the order of another object

Model of `UVFlag.sort_ant_metadata_like` (`src/pyuvdata/uvflag/uvflag.py` 1338-1385). `np.argsort` is any sorting function.
`Nants` is the number of antenna numbers of the telescope. Numbers, names and positions are lists; positions are any type.

### `Verif/AntPair/Model.lean`

Model of `UVData.antpair2ind` (src/pyuvdata/uvdata/uvdata.py 2576–2677), `get_baseline_nums` (2927–2942),
`get_antpairs` (2944–2954) and `get_ants` (2907–2925), without the cache (see `Verif.Cache`).

### `Verif/AntStr/Model.lean`

Model of `parse_ants`, `src/pyuvdata/utils/bls.py` lines 129–385, used by `UVData.select` (uvdata.py 6617–6633) and `UVFlag.select` (uvflag.py 2471) for
`ant_str`: what is done with the string once it is cut into its parts. The parts that the regular expression of lines 190–191 finds are values of
`Item`; how the text is cut is not modelled. Warnings are not modelled.

### `Verif/AppSet/Model.lean`

Apparent positions of all rows from the catalog

Model of `UVData._set_app_coords_helper` (`src/pyuvdata/uvdata/uvdata.py` lines 1541-1613), which reading of files
(uvfits, uvh5, measurement sets, Miriad, MIR, FHD, MWA), `UVData.new` and resampling in time (line 7383) call to fill
in the apparent positions and position angles of rows.  The object and the sky are those of `Verif.Phase`.

### `Verif/Baseline/Model.lean`

Model of the baseline-number encoder and decoder of pyuvdata.
Source: /repo/src/pyuvdata/utils/bls.py and /repo/src/pyuvdata/utils/bls.pyx.

### `Verif/Beam/Add.lean`

Model of `UVBeam.__add__`, `src/pyuvdata/uvbeam/uvbeam.py` lines 2346–2888.

* Objects are those of `Verif.Beam.Model`. What is done for the image axes and for the pixels is the same code with other names.
* `np.argsort` is any sorting function.
* The method is the one that works in place (`+=`); `+` works on a copy.
* Left out: `check` except for the shapes, the comparison of the other attributes (2402–2430; it can only raise), types of numbers, history, file
  names, warnings.

### `Verif/Beam/Model.lean`

Model of `UVBeam` objects and of `UVBeam.select`, `src/pyuvdata/uvbeam/uvbeam.py` lines 2890–3262.

* An array is a function of positions; its shape is that of the label lists. Where the code can leave an array with another shape, the length in
  question is kept (`npol`, the lengths in `basis`).
* `data i j k l` is what `data_array[:, i, j, k, l]` has, over `Naxes_vec`; `basis k l` is `basis_vector_array[:, :, k, l]`; `coupling i i' j` is
  `coupling_matrix[:, :, i, i', j]`.
* Feeds are single letters and stand for their code points, so that `pols` is `polarization_array` or `feed_array`.
* For a HEALPix object `ax1` is `pixel_array` and `ax2` has one element.
* `extra` stands for `receiver_temperature_array`, `loss_array`, `mismatch_array` and `s_parameters`, which are treated alike.
* A method that works in place gives the object as it is afterwards, also if an exception is raised.
* Of `check` only the comparison of shapes is modelled, which is what can fail after a selection. Left out: history, warnings, the counts, the change
  of the type of `data_array` from complex to real (3237–3250). Selected polarizations are given as numbers.

### `Verif/Beam/Norm.lean`

Model of `UVBeam.peak_normalize`, `src/pyuvdata/uvbeam/uvbeam.py` lines 843–854, and C99.

All values of a channel, over axes, feeds or polarizations and pixels, are one list. A value is `none` when it is not a number; dividing by
zero gives `none` (in numpy the result is nan or, for a number that is not zero, infinite, which cannot happen when the divisor is the
largest modulus). Numbers are real or complex, without rounding.

### `Verif/Beam/PStokes.lean`

Model of `UVBeam.efield_to_pstokes`, `src/pyuvdata/uvbeam/uvbeam.py` lines 1094–1202, with `_stokes_matrix` and `_construct_mueller`, lines
1022–1092, and C100.

Frequencies and pixels are one axis, as in the model of `efield_to_power`; the reshaping of pixels in lines 1138–1142 and 1175–1176 is the
identity in that form. Left out: the history, the final `check`, warnings, the bookkeeping of which attributes are required, and the
assertion in lines 1169–1172, which holds since the values are absolute values.

### `Verif/Beam/Power.lean`

Model of the conversion of an electric-field beam to a power beam, `UVBeam.efield_to_power`, `src/pyuvdata/uvbeam/uvbeam.py` lines 856–1020,
with `_check_auto_power` and `_fix_auto_power`, lines 686–762.

The axes for frequencies and pixels are one axis here, since nothing in these lines tells them apart; its length is `points`. Arrays are
functions of positions. Numbers are real or complex numbers, without rounding, so the small imaginary parts that the code takes care of do
not arise, and the branch that takes care of them is modelled all the same. Left out: the history, the final `check`, warnings, and the
bookkeeping of which attributes are required. The copy made with `inplace=False` is the object the model returns.

### `Verif/BeamFits/Model.lean`

Model of beamfits files, `src/pyuvdata/uvbeam/beamfits.py`: of `write_beamfits` lines 535–573, 603–706, 728–736 and 845–884 and of `read_beamfits` lines
104–339 and 456–496, with the numbers of axes of lines 20–36, `_test_array_constant` and `_test_array_constant_spacing`,
`src/pyuvdata/utils/tools.py` lines 184–268, and `_gethduaxis`, `src/pyuvdata/utils/io/fits.py` lines 26–32.

The main array of the file is a shape and a function of lists of positions, both in the order of numpy, so that axis number `k` of the format is the
`k`-th from the end. The place on the sky is a list of positions: two for images and one for healpix maps. Numbers are in an ordered field, in which
degrees and radians are exact multiples of each other. Left out: the checks of `check`, headers, basis vectors, units of files from other programs, and
files with less axes. The columns of the table of frequencies are lists.

### `Verif/Blt/Model.lean`

Model of `UVData.reorder_blts` (src/pyuvdata/uvdata/uvdata.py 3824–4056) and `set_rectangularity` (3780–3806)
on the struct-of-arrays object.

Real-valued quantities are values of an ordered type `R` (only compared); a uvw vector is a value of `V`; one
`[i, :, :]` row of the data, flag and nsample arrays is a value of `D`, `F`, `N`.  The optional
`conj_convention` step (3946–3949) is `Verif.Conj` (run before), the final `check` is not modelled.

### `Verif/BltAxis/Model.lean`

Model of `src/pyuvdata/utils/bltaxis.py`: `determine_blt_order` (9–147) and `determine_rectangularity`
(150–230).

Times are values of an arbitrary linearly ordered type: the code only compares them (and, in the
rectangularity test, sums absolute differences and compares the sum with zero, which for numbers is the
statement that all the differences vanish; this is what is modelled).

### `Verif/Cache/Model.lean`

Model of the two index caches of `UVData` (src/pyuvdata/uvdata/uvdata.py): `__antpair2ind_cache` (2627, 2676) and
`__key2ind_cache` (2726, 2835), and of the attribute setters that clear them (197, 210, 255, 634–643; the setter
runs on assignment, uvbase.py 257–261, and after selection, uvdata.py 7084).

### `Verif/Cache/Read.lean`

C120: what queries give after a file is read into an object that was in use.

Model of `_convert_from_filetype` (src/pyuvdata/uvdata/uvdata.py 8974–8987), through which every file is read into an
object (9119, 9233, 9351, 9449, 9587, 9737, 9934): the parameters are replaced as whole objects (`setattr(self, p,
param)` with `p` the name with the underscore), not through the properties of uvbase.py 257–261, so the functions
of uvdata.py 634–643 that empty the caches are not called.

### `Verif/CalAdd/Model.lean`

Model of `UVCal.__add__`, `src/pyuvdata/uvcal/uvcal.py` lines 2584–3401, for objects with data, and of `_check_range_overlap`,
`src/pyuvdata/utils/tools.py` lines 271–302.

* An array over antennas, channels, times and Jones components is a function of four positions; its shape is that of the label lists. For a
  wide-band object the second axis are spectral windows. `V` is a solution together with its flag; `blank` is zero and flagged.
* A `Row` holds what is kept for one time; the arrays it stands for are treated by the code in the same way (3089–3120, 3317–3330). The label of a
  time is `time_array`, or the start of `time_range`.
* What the code does along one axis is a `Plan` of `Verif.Add`: lines 2801–2853, 2860–2925, 3234–3254 are those of `UVData.__add__` for
  polarizations, and for channels, with other names. The `reorder_*` methods are called with index arrays (see `Verif.CalSort`).
* Frequencies and times are compared exactly, as in the code.
* Left out: `check`, the comparison of the telescope and of other attributes (2637–2708; they can only raise), merging of phase center catalogs
  (modelled in `Verif.PhaseCat`), history, file names, counts, warnings.

### `Verif/CalFits/Keywords.lean`

Model of extra keywords in calfits files: `write_calfits`, `src/pyuvdata/uvcal/calfits.py` lines 172–317, and `_get_extra_keywords`,
`src/pyuvdata/utils/io/fits.py` lines 59–117, with the keywords that `read_calfits` takes out before, lines 539–719.

As for uvfits files, a header is a list of keywords and values. Left out: the keyword COMMENT, and values that are lists or dictionaries, which are
refused. C116: which extra keywords a calfits file keeps.

### `Verif/CalFits/Model.lean`

Model of calfits files, `src/pyuvdata/uvcal/calfits.py`: of `write_calfits` lines 66–170, 212–231, 244–294 and 322–476 with `_check_freq_spacing`,
`src/pyuvdata/uvcal/uvcal.py` lines 1209–1219 and `src/pyuvdata/utils/frequency.py` lines 89–125, and `_test_array_constant_spacing`,
`src/pyuvdata/utils/tools.py` lines 252–268; of `read_calfits` lines 519–531, 605–613, 637–681 and 718–793, with `_gethduaxis`,
`src/pyuvdata/utils/io/fits.py` lines 26–32.

The file is what is kept in it: the numbers of the axes, the table of antennas and the values of the images as functions of positions. Numbers are in
an ordered field; the two roundings to a number of decimal digits, of the step of frequencies and of the step of times, are functions. Left out: the
other checks of `check`, the header, lsts, positions and diameters of antennas, the precision of the images, and the comparison of axes of the images
with each other, which the writer makes equal. Lists that `check` requires and that are not there give the error `attr`.

### `Verif/CalH5/Model.lean`

Parts of calibration files in HDF5

Model of what `src/pyuvdata/uvcal/calh5.py` does with arrays: `write_calh5` (810-887), `_get_data` (307-611) and the choice between them in
`read_calh5` (614-693). Objects are those of `Verif.CalAdd`: arrays are functions of positions, their shape is that of the label lists; the
contents of a file are such an object too. A gain or delay and its flag are one value, since the code treats them alike.

* `_select_preprocess` and `_select_by_index` are those of `Verif.CalSelect`, `_convert_to_slices` that of `Verif.Slices`. The labels are cut when the
  object has no arrays yet (436-445).
* `_index_dset` (modelled in `Verif.Hdf5`) is here: the positions that one axis is read at. `h5py` refuses an empty list; a list with
  channels counted from the end is refused here too if it is handed to `h5py` (what is read then is not modelled).
* The rounding of qualities to 32 bits is a parameter.
* A fraction with no positions at all (`0/0`, an exception) is 0 here.
* Left out: the header (`Verif.CalHead`), compression, `check`, history, warnings.

### `Verif/CalHead/Model.lean`

The header of calibration files in HDF5

Model of `CalH5._write_header` (`src/pyuvdata/uvcal/calh5.py` 695-808), `Telescope.write_hdf5_header`
(`src/pyuvdata/telescopes.py` 908-938), the attributes of `FastCalH5Meta` (`calh5.py` 59-95 with `HDF5Meta`,
`src/pyuvdata/utils/io/hdf5.py` 538-734), `Telescope.from_hdf5` (`telescopes.py` 844-906) and `CalH5._read_header` (`calh5.py` 138-305).

What a file is, how names and strings are stored, and how dictionaries are written and read is that of `Verif.H5Head`, with the
simplifications there. Sidereal times that are not in the file are a function of the times (`lst`); what is known about telescopes is a
parameter (`known`, see C149). Left out: the checks (C209 is about what is read, not about what is refused afterwards).

### `Verif/CalSelect/Model.lean`

Model of `UVCal.select`, `src/pyuvdata/uvcal/uvcal.py` lines 4380–4521, with `_select_preprocess` (3898–4274) and `_select_by_index` (4276–4378).

* Objects are those of `Verif.CalAdd`: arrays are functions of positions. Channels of a narrow-band object are its second axis, windows that of a wide-band object.
* The choice of times is that of `Verif.TimeSel` (`_select_times_helper`); the functions from strings of Jones components to numbers are a parameter.
* Channels may be given as negative numbers, as in Python.
* `_select_by_index` changes one axis after the other; if it raises, the axes before are changed already. So its result is an object and perhaps an error.
  `take` with an empty Python list raises, since the list becomes an array of floating-point numbers.
* Left out: `check`, history, warnings, numbers given as single values.

### `Verif/CalSort/Gain.lean`

Model of `UVCal.convert_to_gain`, `src/pyuvdata/uvcal/uvcal.py` lines 2467–2582, and C85.

`np.dot` of an array of shape (antennas, times, Jones, 1) with one of shape (1, channels) followed by the transposition to (antennas, channels,
times, Jones) is written as the nested list of products. Numbers are real; rounding is not modelled. Left out: the history, the final `check`,
the check that arguments are arrays of one dimension, and the bookkeeping of which attributes are required.

### `Verif/CalSort/Model.lean`

Model of the reordering methods of `UVCal`: `reorder_antennas`, `src/pyuvdata/uvcal/uvcal.py` lines 2056–2137, `reorder_freqs`, 2139–2292,
`reorder_times`, 2294–2383, `reorder_jones`, 2385–2465.

* An array is a nested list. `main` is `gain_array` or `delay_array`, whichever is set; the other one is `None` and is skipped by the code.
* `N` are names of antennas and of Jones components with numpy's order of strings; `antName` is the table of antenna names of the telescope,
  `jName` the function `jnum2str` with the feed orientation of the telescope. `none` is an exception.
* `Nants_data`, `Ntimes`, `Njones`, `Nspws`, `Nfreqs` are lengths of arrays; `Nfreqs` of a wide-band object is 1 (line 1646).
* Left out: warnings, the history, the final `check`.

### `Verif/Calib/Model.lean`

Model of `uvcalibrate` (src/pyuvdata/utils/uvcalibrate.py 13–593) for calibrations of type "gain" that are not
wide-band, with the `UVCal` lookups it uses (uvcal/uvcal.py 1805–1989) and the part of `UVCal.select` it uses (uvcal.py
4045–4058, 4141–4188, 4302–4375).

Labels are lists; the four-dimensional gain arrays and the three-dimensional visibility arrays are functions of their
indices.  Numbers: `R` (times, frequencies) is an ordered field, `V` (gains, visibilities) a field with a conjugation
`cj` and a test `near0` for `np.isclose(·, 0)`.  The tolerances of the time and frequency arrays are absolute, as they are
by default.  Not modelled: delay-type calibrations (`convert_to_gain`), `d_term_cal` (always raises), the object checks at
255–256, the history, warnings.  Errors keep the object as it is at that moment, because the default is to work in place.

### `Verif/Check/Model.lean`

The check of a UVData object

Model of `UVData.check` and `_fix_autos`, `src/pyuvdata/uvdata/uvdata.py` 2103-2488.

Simplifications.  Numbers are exact, in an ordered field `K`; visibilities are pairs of real and imaginary part, `mag` is
their absolute value.  The checks of each parameter by itself (`UVBase.check`, see C62) and of the telescope are a
parameter `base`.  The baseline vectors expected from the antenna positions (2355, see C56) are a parameter `expd`.
Warnings are left out; so are the positions on the surface of the earth and the sidereal times, for which there are only
warnings, and the spacing of channels (2486).  If the number of times is wrong there is an error in any case, so that the
second time (2244) may be taken to exist.

### `Verif/Collapse/Model.lean`

Model of `src/pyuvdata/utils/array_collapse.py`.

An `axis` argument splits an array into independent cells, one per position of the remaining axes; the model is that of
one cell, the list of the entries that numpy combines into it.  Arithmetic is exact over an ordered field `K`; infinite
values and NaN are represented, signed zeros and overflow are not.

### `Verif/Compass/Model.lean`

COMPASS solutions for MIR data

Model of `_read_compass_solns`, `read_compass_solns` and `_apply_compass_solns`
(`/repo/src/pyuvdata/uvdata/mir_parser.py` 3216-3617).

The file is given by its arrays, as functions of positions; lengths of the arrays along antennas, columns (receivers, sideband and window),
times and baselines are those of the lists.  Spectra are functions of the channel; that they are as long as the solutions is not checked in the model
(numpy refuses others).  Arithmetic is exact; `none` is a value that is not finite.  Reading of the file, checks that data are not loaded, and the warning
are not modelled.

### `Verif/Compress/Model.lean`

Model of `UVData.compress_by_redundancy(method="average")`, `src/pyuvdata/uvdata/uvdata.py` lines 8691–8875.

* The redundant groups and the baselines of opposite direction are the result of `get_redundancies` (modelled in `Verif.Redund`) and arguments here, and so
  is `find_clusters` for the times of a group.
* Visibilities are a module over the field of weights with a linear conjugation. The masked weighted average of numpy is zero where all weights are masked
  or their sum is zero; this is the inverse of zero here.
* The arrays of the compressed object are given as functions of the rows of the object it is made from. `select(bls=...)` keeps the rows of the first
  baselines of the groups (C34); data that have a pair of antennas in both directions are left out here.
* Members of a group are taken from a Python set if there are conjugated baselines; the order does not matter for the sums.
* Left out: `check`, warnings (the comparison of integration times only warns), the arrays of metadata, which are those of `select`.

### `Verif/Concat/Model.lean`

Model of `UVData.fast_concat`, uvdata.py 5886–6212, for objects with data.

* The phase center IDs of the objects are those after the catalogs have been made consistent; that step (5988–5999) is
  modelled apart, in `tree`.
* Of the arrays along the baseline-time axis `ant1`, `ant2`, `bl`, `time`, `lst`, `integ`, `uvw`, `pc` are kept; the apparent
  coordinates are treated like `lst`.
* Comparison of two float parameters is a parameter (`Close`), since `UVParameter.__eq__` compares within tolerances.
* Left out: `check`, history, file names, warnings, `vis_units`, `telescope`, objects without data, rectangularity.

### `Verif/Conj/Model.lean`

Model of `UVData.conjugate_bls` (src/pyuvdata/uvdata/uvdata.py 3574–3701).

Coordinates are values of a linearly ordered additive group `R` (real numbers); visibilities are values of a
type `C` with an operation `cj` (complex conjugation).  `np.isclose(x, 0, atol=tol)` is `|x| ≤ tol` (the
relative term vanishes because the second argument is 0).

### `Verif/Coord/Model.lean`

Coordinate transformations

Model of `src/pyuvdata/utils/coordinates.py` (lines 39-481) and of the loops it calls in
`src/pyuvdata/utils/coordinates.pyx` (lines 19-226).  Floating-point numbers are real numbers
here: rounding is not modelled.  `atan2` of the C library is the argument of a complex number
(no signed zeros), division by zero gives zero where C gives an infinity or a NaN.

### `Verif/Cst/Model.lean`

Files of beams from CST

Model of `CSTBeam.name2freq` and `CSTBeam.read_cst_beam` (`src/pyuvdata/uvbeam/cst_beam.py` 26-52, 141-366), of
`UVBeam.read_cst_beam` (`src/pyuvdata/uvbeam/uvbeam.py` 3489-3766) and of `_test_array_constant_spacing` and `_test_array_constant`
(`src/pyuvdata/utils/tools.py` 185-268).

Arithmetic is exact. Lower case is that of ASCII, `\d` in the regular expression is an ASCII digit, and the body of the file (`np.loadtxt`) is a
list of rows of numbers. The check of the object at the end and the parameters that are copied from keywords are left out.

### `Verif/Eq/Model.lean`

Comparing parameters and objects

Model of `src/pyuvdata/parameter.py`: `_param_dict_equal` (lines 82-168), `UVParameter.__eq__` (314-605) and
`check_acceptability` (661-702), and of `src/pyuvdata/uvbase.py`: `UVBase.__eq__` (485-612) and `check` (649-831).

Simplifications.  Numbers live in any group with a magnitude, so integers, floats and complex numbers are covered
without rounding; there are NaN and infinite values besides.  Arrays of strings have one dimension.  Lists and
tuples are not told apart.  Dictionaries are association lists, nested at most `n` deep, for every `n`; a naive
comparison of dictionaries is taken not to see that two values are the same object, and to fail if a value is an
array.  Quantities, record arrays, locations and sky coordinates are not modelled, nor are the messages.
Whitespace is what `Char.isWhitespace` says.

### `Verif/EqCoeff/Model.lean`

Removal of equalization coefficients

Model of `UVData.remove_eq_coeffs`, `src/pyuvdata/uvdata/uvdata.py` 4174-4236.  Arrays are functions of positions,
numbers are exact.  `antpair2ind` and `get_antpairs` are those of `Verif.AntPair` (without cache, C15).

### `Verif/FastMeta/Model.lean`

Metadata of uvh5 files read on demand

Model of the class `FastUVH5Meta` of `src/pyuvdata/uvdata/uvh5.py`: `Nbls` (lines 181-204), `blt_order` (206-231),
`blts_are_rectangular` (233-261), `time_axis_faster_than_bls` (263-277), `times` (279-289), `lsts` (291-301),
`unique_antpair_1_array`, `unique_antpair_2_array`, `unique_ants` (328-361), `antpairs` (379-385) and `has_key`
(387-397).

Simplifications.  The arrays of the header are a list of rows, each with its time, antennas and baseline number (the
baseline numbers are computed from the antennas: `antnums_to_baseline`, C01).  The values are those of a file that does
not change, so that the caches of the properties are left out; the side effect of `blts_are_rectangular` on the private
`__time_first` is kept.  The order of `list(set(…))` is not defined by Python; here it is that of the last occurrences.

### `Verif/FhdHist/Model.lean`

The history in FHD settings files

Model of `/repo/src/pyuvdata/utils/io/fhd.py`, `get_fhd_history` (lines 121–176).

Simplifications: the beginning of a line (`startswith`, lines 150–157) is a parameter that gives one of five kinds, since no two of the four beginnings
fit one line; `line.rstrip().replace("\t", " ")` and the second word of a line are parameters; the lines of the history are a list that is not joined.

### `Verif/FhdNames/Model.lean`

Names of the files of an FHD run

Model of `/repo/src/pyuvdata/utils/io/fhd.py`, `fhd_filenames` (lines 17–118), and of `os.path.split` for paths with `/`.

Simplifications: names are lists of characters, and each of the seven arguments is `None` or a list of names (a single name is a list of one).

### `Verif/FileNames/Model.lean`

Names of the files of combined objects

Model of `utils.tools._combine_filenames` (tools.py 21–56) and of how it is called: `__add__` combines two objects
(uvdata.py 5762, uvcal.py 2856, uvbeam.py 2490, uvflag.py 1962), and `fast_concat` and `read` of a list of files combine one
with each of the others in turn (uvdata.py 6195–6197, uvcal.py 3883–3885).  Names are any ordered type.

### `Verif/Fits/Keywords.lean`

Model of extra keywords in uvfits files: `write_uvfits`, `src/pyuvdata/uvdata/uvfits.py` lines 1268–1289, after the keywords of the format, and
`_get_extra_keywords`, `src/pyuvdata/utils/io/fits.py` lines 59–117, with the keywords that `read_uvfits` takes out before, lines 414–512 and 535–546.

A header is a list of keywords and values, in which setting a keyword replaces its value. Letters are changed to capitals as in ASCII. Left out: the
keyword COMMENT, and values that are lists or dictionaries, which are refused. C111: which extra keywords a uvfits file keeps.

### `Verif/Fits/Model.lean`

Model of uvfits files, `src/pyuvdata/uvdata/uvfits.py`: of `write_uvfits` lines 881–999 (checks, frequencies, polarizations and values) with
`_check_flex_spw_contiguous` and `_check_freq_spacing`, `src/pyuvdata/utils/frequency.py` lines 30–125, and `_test_array_constant`,
`src/pyuvdata/utils/tools.py` lines 184–268; of `read_uvfits` lines 413–463 and of `_get_data` lines 245–346, with `_gethduaxis`,
`src/pyuvdata/utils/io/fits.py` lines 26–32.

The file is what is kept in it: the numbers of the axes, the frequency table if there is one, and one triple for each group, window, channel and
polarization. Numbers are in an ordered field; the single precision of the column of channel widths is a rounding function. Tolerances are
absolute, as for these parameters. Values are functions of positions. Left out: the other checks of `check`, phasing to zenith with `force_phase`,
files without the axis of windows, and warnings.

### `Verif/Fits/Params.lean`

Model of what a uvfits file keeps of the rows, antennas and sources: `write_uvfits`, `src/pyuvdata/uvdata/uvfits.py` lines 1008–1059, 1199–1253,
1303–1314 and 1459–1524, and `_get_parameter_data` lines 56–121 and `read_uvfits` lines 667–690 and 714–763, with `_add_phase_center`,
`src/pyuvdata/uvdata/uvdata.py` lines 792–840.

A parameter of a row is stored in the precision of the data, so numbers of antennas and of sources go through a rounding of integers, `rd`; for
single precision it is `f32`. Columns of tables are integers, and strings cut to the width of the column, which is what astropy does with longer ones.
The transformation of a source to the frame of the file and the comparison of two entries of a catalog are parameters. Left out: apparent
coordinates, positions and diameters of antennas, the telescope and the header. C110: what a uvfits file keeps of times, antennas and sources.

### `Verif/Fits/Partial.lean`

Model of reading a part of a uvfits file, `_get_data`, `src/pyuvdata/uvdata/uvfits.py` lines 245–346. The positions that are selected are given, as
they come from `_select_preprocess`: sorted, different, within the axis and not empty. Arrays are functions of positions with the lengths of their
axes; `np.reshape` goes through the flat position. C109: what reading a part of a file gives.

### `Verif/Flag/Metric.lean`

Model of the metric side of `UVFlag`, `src/pyuvdata/uvflag/uvflag.py`: `and_rows_cols` 37–58, `flags2waterfall` 61–125,
`to_flag` 1781–1828, `to_metric` 1830–1903, `__or__` 2215–2272, and `__add__` 1905–2176 of waterfalls, with C49–C52.

The quotients of lines 56, 57, 115 and 121 are exact here.

### `Verif/Flag/Model.lean`

Model of the flag operations: `apply_uvflag`, `src/pyuvdata/utils/apply_uvflag.py` lines 9–120, and of `to_waterfall`,
`to_baseline`, `to_antenna` and `collapse_pol` of `UVFlag` in flag mode, `src/pyuvdata/uvflag/uvflag.py` lines 1137–1779.

* The flags of one row (or of one time, or of one antenna and time) are a function of channel and polarization; `nf` and
  `np` are the lengths of these axes of the flag array, which matter for broadcasting.
* The comparison of frequencies and telescope metadata (lines 1434–1476, 1664–1705) is a parameter `compat`.
* `tols` are the larger of the two objects' tolerances (lines 1520–1521).
* `antpair2ind` and `get_antpairs` are used through what C16–C18 prove of them: the rows of the pair in increasing
  order, and the pairs that occur.
* Not modelled: metadata, history, `check`.

### `Verif/FlagIo/Model.lean`

Making, writing and reading objects of flags

Model of `UVFlag.__init__` (507-589), `_set_mode_flag`, `_set_mode_metric` (643-664), `clear_unused_attributes` (843-872), `read`
(3001-3417), `write` (3419-3529), `from_uvdata` (3531-3684) and `from_uvcal` (3686-3836) in `src/pyuvdata/uvflag/uvflag.py`.

An array is its shape and its entries in order. A telescope has its name, location, antennas and everything else (`X`); that its
header survives a file is C150, so it is one entry of the file here. `known` is `set_telescope_params(run_check=False)`, `blNum` is
`antnums_to_baseline`, `text` is the decimal form of a number. Files are records with entries that may be missing; data are told
from headers of other shapes by the number of axes only. Keywords with a slash in their name, metafits files, warnings and the check at
the end are left out. `version` is the text about the version of pyuvdata.

### `Verif/FlagMet/Model.lean`

Metrics of flag objects that are combined or collapsed

Model of `UVFlag.combine_metrics` (`src/pyuvdata/uvflag/uvflag.py` 2302-2372), `collapse_pol` (1137-1211) and
`to_waterfall` (1213-1336), for flags and for metrics with weights. The functions that collapse are those of
`Verif.Collapse`.

* Arrays are functions of the positions of antenna, row, channel and polarization; a row is a baseline-time of objects of
  type "baseline" and a time of the others, and only objects of type "antenna" use the antenna position.
* Names of polarizations are texts: numbers are those of `str`.
* `collapse_pol` and `to_waterfall` change the object itself, so the result is the object afterwards and perhaps an error.
* The only part of `check` that is modelled is the shape of the squares of weights, given as the number of polarizations
  of that array.
* The square root is a parameter. Left out: other metadata, history.

### `Verif/FlagSel/Model.lean`

Selection from flag objects

Model of `UVFlag.select`, `src/pyuvdata/uvflag/uvflag.py` 2805-2999, with `_select_preprocess` (2374-2744) and
`_select_metadata` (2746-2803).

* A row is a baseline-time of an object of type "baseline" and a time of the other types, whose rows have no antennas.
  Arrays are functions of the positions of antenna, row, channel and polarization; objects that are not of type "antenna"
  use only the antenna position 0.
* `data` are flags, or metric, weights and squares of weights: all are treated alike.
* `list(set(a).intersection(b))` is a filter: its order does not matter as the result is sorted (2669).
* The antenna string is read by a parameter (`parse`, see C130), and so are names of polarizations.
* `select` changes the object itself, so the result is the object afterwards and perhaps an error.
* Left out: checks of types of arguments, single values for lists, history, `check`.

### `Verif/FlexJones/Model.lean`

Model of the conversions of `UVCal` between several Jones components and one Jones component per spectral window: `remove_flex_jones`,
`src/pyuvdata/uvcal/uvcal.py` lines 790–948, `_make_flex_jones`, 950–1026, `convert_to_flex_jones`, 1028–1094.

* Positions of the second axis are called channels. `lab` says what a channel is: frequency and width, or for a wide-band object, in which every
  window has one position, the frequency range. For a wide-band object `ids` stands for `spw_array`, which the code uses in place of
  `flex_spw_id_array` (884, 929, 979); all lines then read alike for both kinds of object.
* `planes` are the arrays of data by channel, as functions of antenna, time and Jones positions. `V` stands for solution, flag and quality of one
  cell, which are handled alike; `blank` is zero, flagged.
* Frequencies are compared exactly; tolerances are left out.
* `total` says whether `total_quality_array` is set. It has one axis less than the other arrays, and the statements that convert an array raise
  an exception on it, after everything else has been set. The state the object is left in is part of the result.
* The order in which Python lists a set of numbers (1049) is a parameter.
* Left out: warnings, objects without data.

### `Verif/FlexPol/Model.lean`

Model of the conversions between several polarizations and one polarization per spectral window:
`remove_flex_pol`, uvdata.py 1691–1933, `_make_flex_pol`, 1935–2034, `convert_to_flex_pol`, 2036–2097.

* `V` stands for visibility, flag and number of samples of one cell; all three are handled alike. Arrays of data are functions of
  baseline-time, channel and polarization positions.
* `reshape(..., order="F")` is written out: position in memory counted with the first axis fastest.
* The number taken from a set of free numbers in 2056–2060 is any number that is not in use (`fresh`).
* The ordering of channels and windows in 1834–1864 is a parameter of `remove`; `reorderFlex` is the one of the code, on top of the
  model of `_sort_freq_helper`. `eq_coeffs`, which the conversions do not touch, is left out.
* Left out: warnings, objects without data.

### `Verif/FreqAvg/Model.lean`

Model of `UVData.frequency_average`, uvdata.py 8212–8522.

* `κ` are the positions along the baseline-time and polarization axes, `cells` lists them; a channel carries all its cells.
* Numbers are exact (an ordered field); `int(np.floor(n / k))` and `int(np.ceil(n / k))` are the whole quotients.
* The preallocated arrays are filled window by window from consecutive positions, so the result is the concatenation of the
  windows.
* Left out: `eq_coeffs`, warnings, objects without data, data types.

### `Verif/FreqSort/Model.lean`

Model of `_sort_freq_helper`, `src/pyuvdata/utils/frequency.py` lines 135–307.

`Nfreqs`, `Nspws` are the lengths of the arrays.  Frequencies are elements of an ordered field.  `np.argsort` is any
function that returns a sorting permutation: numpy does not promise how ties are broken.

### `Verif/FreqSort/Reorder.lean`

Model of `UVData.reorder_freqs`, `src/pyuvdata/uvdata/uvdata.py` lines 4058–4172, and C47.

An array with a frequency axis is the list of its channels: `data`, `flags`, `nsamples` are lists of channel planes,
`eqCoeffs` the list of its columns.  `flex_spw_id_array` is required in this version of the code, so it is always there.

### `Verif/GetData/Model.lean`

Model of `UVData._key2inds` (src/pyuvdata/uvdata/uvdata.py 2679–2836), `_smart_slicing` (2838–2905) and the
`get_data` family built on them (3056–3113).

The frequency axis is never indexed by these functions: a visibility here is the whole spectrum `V` of one
baseline-time and polarization, `cj` its complex conjugate.  Results have axes (blt, pol); dropping an axis of
length one ("squeeze") and the read-only marking of views are not modelled.  Cache lookups are modelled in
`Verif.Cache`.

### `Verif/H5Head/Model.lean`

The header of uvh5 files

Model of `UVH5._write_header` (`src/pyuvdata/uvdata/uvh5.py` 1129-1236), `Telescope.write_hdf5_header`
(`src/pyuvdata/telescopes.py` 908-938), the class `HDF5Meta` (`src/pyuvdata/utils/io/hdf5.py` 538-734), the properties of
`FastUVH5Meta` with values from the header (`uvh5.py` 100-140, 181-277, 407-422), `Telescope.from_hdf5` (`telescopes.py`
844-906) and `UVH5._read_header_with_fast_meta` (`uvh5.py` 463-656).

Simplifications.  Numbers and arrays of numbers are values of a type `V`, stored and read exactly (counts are natural
numbers).  The position of the telescope is its latitude, longitude and height; conversions are exact.  Numbers of phase
centers are not negative.  `h5py` is a tree: names are split at `/`, a name can be used once, members of groups are
listed in the order of their names, strings are bytes without trailing zeros, and `np.bytes_` takes ASCII only.  Files in
the old formats (no catalog of phase centers, no sidereal times, arrays with an axis for windows) are not modelled, nor
are arguments of the reader that override the header.  What the arrays say about the layout of the rows (`det`, see C136),
the numbers of baselines (`blOf`, see C01), the numbers of windows of each channel if there are none in the file (`fill`)
and the table of known telescopes (`known`, see C149) are parameters.

### `Verif/Hdf5/Model.lean`

Model of `src/pyuvdata/utils/io/hdf5.py` lines 74–258: `_get_slice_len`, `_get_dset_shape`, `_index_dset`.

An n-dimensional array is its shape and a function from multi-indices (`List Nat`).  Exceptions are `none`.
Simplifications: slice bounds are non-negative or `None`; exceptions raised by an individual block
assignment are reported without the blocks already stored (only matters for the write direction).
h5py refuses more than one index list per selection ("Only one indexing vector or array is currently
allowed"), so such requests are `none`; (numpy arrays, which `set_data` passes, would pair the lists
element by element instead: not modelled).

### `Verif/History/Model.lean`

Model of `src/pyuvdata/utils/history.py`.  Strings are lists of characters.

### `Verif/Interp/Model.lean`

Model of the interpolation of beams, `UVBeam.interp`, `src/pyuvdata/uvbeam/uvbeam.py` lines 1766–2114, with `_interp_freq`, lines 1204–1302,
and `_interp_az_za_rect_spline`, lines 1304–1574. The part for healpix maps, lines 1576–1764, is modelled only in its check of the order of pixels.

What scipy does is a parameter (`Lib`): `interp1d` along the frequency axis and `RectBivariateSpline` over the grid, applied to the real and
imaginary parts by the code, here to values of any type. Arrays are functions of positions, coordinates are lists over an ordered field, and
there is no rounding; `np.isclose` is the comparison with its tolerances, the number 2π a parameter. Polarizations are given by number.
Left out: phased arrays and their coupling matrix, the choice of an interpolation function, the change between grids and healpix maps, arrays
that a new object loses (lines 2023–2036), the history, the final `check`, and warnings.

### `Verif/KnownTel/Model.lean`

Parameters of known telescopes

Model of `Telescope.update_params_from_known_telescopes`, `src/pyuvdata/telescopes.py` 508-700.

Simplifications.  The position of the telescope with this name (`loc`, from the table or from astropy; `none` if neither
has it) and the entry of the table (`entry`, with the contents of the file of antenna positions) are parameters.  Warnings,
citations and the check at the end are left out.  If the number of antennas is not set, diameters are not filled in
(in the code `np.zeros(None)`).

### `Verif/Lst/Model.lean`

Sidereal times

Model of `get_lst_for_time` (`src/pyuvdata/utils/times.py` 24-247) and `check_lsts_against_times` (250-321).

* Times are a flat list: the shape is put back at the end (line 245).
* What the astronomical libraries give for a time is a parameter: the sidereal time at longitude zero in radians and the drift of the pole
  (`gast`, `sp`; erfa), that at the place in radians (`local`; astropy), that at longitude zero in hours (`gastH`; novas).
* `pi` is a number.
* Warnings about times outside of tables, and whether packages are installed, are left out.

### `Verif/MirAdd/Model.lean`

Adding tables of MIR records

Model of `MirMetaData.__add__` (`src/pyuvdata/uvdata/mir_meta_data.py` 775-853) with `_add_check` (2007-2199).

* A table is a list of records with header key, values and mask (`good`: the record is used). Header keys are different; a dictionary from keys
  to positions is the list of its keys in the order of the dictionary, which is that of sorted keys (`_set_header_key_index_dict` 1667-1677 by
  `group_by` 1827-1843), and the record of a key is looked up.
* Dictionaries of two tables are equal (2086) if the tables have the same keys at the same positions.
* Types of tables (2072) and stored values (851) are left out.

### `Verif/MirCat/Model.lean`

MIR data of different files together

Model of `MirParser.__add__` (`src/pyuvdata/uvdata/mir_parser.py` 2720-3019) for objects of different files, with `_generate_new_header_keys` and
`_update_fields` (`mir_meta_data.py` 1679-1725, 1922-2005), and of where `_read_data` (1126-1176) finds spectra.

* A dictionary is the list of its assignments: the last one of a key counts.
* Integrations and spectra are their header keys (spectra with the key of their integration); other tables, auto-correlations
  and the comparison of tables and times (2861-2904, which may refuse the sum) are left out. Keys are natural numbers. Tables with different keys are added as in `Verif.MirAdd`.
* Files are `F`, where an integration is in its file `R`, where a spectrum is in its integration `P`, spectra that are loaded `V`, scales `J`.

### `Verif/MirCipher/Model.lean`

Matching MIR records by two numbers

Model of `/repo/src/pyuvdata/uvdata/mir_meta_data.py`, `MirMetaData._make_key_mask` (lines 2598–2705) with `use_cipher=True`, which `MirParser` uses to
match antennas of integrations (`antenna`, `inhid`, both 32 bits) with baselines (`iant1` or `iant2` of 16 bits, and `inhid` of 32 bits).

Simplifications: the fields are those of the records that are not masked, `np.isin` is membership (its assumption of unique keys is taken to
hold, so `this` are header keys of different records unless `reverse=True`), and the mask is returned (`set_mask=False`). A signed type of `w` bits is
given by the number `2 ^ w` of its values.

### `Verif/MirCodes/Model.lean`

Codes of MIR data

Model of `/repo/src/pyuvdata/uvdata/mir_meta_data.py`, `MirCodesData.get_codes` (lines 3190–3233) with `get_code_names` (3061–3070).

Simplifications: names of codes and codes are of any types with equality, a dictionary is the list of its pairs in the order in which they are put in,
and numbers and codes are never the same key (numbers are integers, codes are strings).

### `Verif/MirData/Model.lean`

Visibilities of MIR files

Model of `MirParser._convert_raw_to_vis` (934-983), `_convert_vis_to_raw` (986-1054), `apply_tsys` (1364-1500), `load_data` (1627-1783),
`unload_data` (1785-1823), `_rechunk_data` (2437-2550), `_rechunk_raw` (2553-2628) and the loops of `rechunk` (2630-2718) in
`src/pyuvdata/uvdata/mir_parser.py`.

Arithmetic is exact, so 32 bit numbers that overflow or lose digits are left out; multiplying by powers of two is exact for them as well.
A spectrum is a list of channels with the two parts of the value, the flag and the weight.

### `Verif/MirFix/Model.lean`

Repaired positions of the integrations of MIR files

Model of `MirParser._fix_int_dict` (mir_parser.py 582–617), for one file.  Dictionaries are lists of pairs with different keys;
`scanned` is what `_scan_int_headers` gives (lines 585–601, see `Verif.MirPack.File`).

### `Verif/MirGet/Model.lean`

Values of MIR tables

Model of `MirMetaData._index_query`, `get_value`, `set_value` and `reset_values` (`src/pyuvdata/uvdata/mir_meta_data.py` 1044-1183, 1185-1275,
1295-1388, 1878-1911).

* A table has `size` records; its fields `fields` are lists of that length (`_data`), `mask` says which records are used, `keys` are header keys.
* A condition is a field and what its value should meet (the comparisons of `where`, 991-1033, are those of `Verif.MirSel`); fields with several values
  for each record are left out.
* Positions count from zero (negative ones of numpy are left out). Several fields at once are values of one after the other (1263-1268).
* Left out: warnings (1358-1379), the form of arguments (1147-1162).

### `Verif/MirLoc/Model.lean`

Where the telescope and antennas of Miriad files are

Model of `Miriad._load_telescope_coords` (miriad.py 254–358), of the parts of `Miriad._load_antpos` (lines 375–605) about
locations and positions, and of how they are called on reading (lines 707, 710 and 1135), for files that other programs have written (those without `antnums`; files of pyuvdata are in
`Verif.Miriad.HeadModel`, C171).

* Positions are elements of any space; that `antpos` is in nanoseconds is left out.
* What astropy calculates (geodetic coordinates) and the rotation of lines 423 are arbitrary functions.
* Arithmetic is exact.  The mean of no positions is NaN: `none`.

### `Verif/MirMask/Model.lean`

Stored masks of MIR objects

Model of `MirParser.save_mask` and `MirParser.restore_mask` (mir_parser.py 1990–2052), and of what happens to stored masks on
reading another file into the same object (lines 2265–2279 and `_clear_auto`, lines 1945–1963).

* Tables are names with masks; dictionaries are lists of pairs with different names.
* What `_update_filter` does to masks is an arbitrary function.  (See `Verif.MirSel` for it.)
* Steps that raise leave the object as it is.
* The file dictionaries of objects with auto-correlations all have these (line 1960).

### `Verif/MirOnline/Model.lean`

Online flags and receivers of MIR files

Model of `/repo/src/pyuvdata/uvdata/mir_parser.py`, `MirParser.apply_flags` (lines 1502–1520) and the part of `_make_v3_compliant` that fills the
receivers of the antennas (lines 4188–4200).

Simplifications: `vis_data` is a list of pairs of key and record in place of a dictionary, no two records share one array, and the arrays `sphid` and
`flags` are those of the records of `sp_data` that are not masked. Values are integers without bounds.

### `Verif/MirPack/Model.lean`

Packed files of MIR data

Model of `MirMetaData.group_by` (`src/pyuvdata/uvdata/mir_meta_data.py` 1747-1876), `_recalc_dataoff` (2419-2470), `_generate_recpos_dict`
(2472-2596), and of `MirParser._scan_int_headers` (`src/pyuvdata/uvdata/mir_parser.py` 443-563), `_read_packdata` (620-829), `_make_packdata`
(832-931), the slices of `_read_data` (1169-1192) and `_write_cross_data` (1226-1302).

Only the newer format of cross-correlations is modelled: headers of two 4 byte integers, values of two bytes, all with the lowest byte first.

### `Verif/MirSel/Model.lean`

Selections from MIR data

Model of `MirParser.select` (`src/pyuvdata/uvdata/mir_parser.py` 3069-3214) and `MirParser._update_filter` (1825-1924), with
`MirMetaData.where`, `_index_query`, `_generate_mask`, `set_mask` and `_make_key_mask`
(`src/pyuvdata/uvdata/mir_meta_data.py` 931-1183, 1405-1468, 1513-1597, 2598-2705), `MirCodesData.where` (3072-3188), and of the list
of conditions that `Mir.read_mir` makes (`src/pyuvdata/uvdata/mir.py` 117-164).

A table is a list of rows with the bits of its mask; a row gives the values of each field (a list, since some fields of the weather
table have several values). Numbers are any linear order. Pairs of numbers are compared, not their 64-bit ciphers (the two are at most
16 and 32 bits wide, so it is the same). `np.isin(..., assume_unique=True)` is membership, as it is for identifiers that are unique.
A value to compare with is given as the list of its numbers and as the list of their texts, which are used for codes. Texts
for fields that are not codes, and conditions on the columns of the table of codes, are not modelled; nor is the
update of data that are loaded already.

### `Verif/MirShift/Model.lean`

Shifting spectra of MIR data

Model of `_generate_chanshift_kernel`, `_chanshift_vis` and `redoppler_data`
(`/repo/src/pyuvdata/uvdata/mir_parser.py` 3620-4112).

Arithmetic is exact.  Visibilities are elements of a vector space `V` over the numbers `K`, weights are numbers; data and weights
are finite before the shift.  A spectrum is a list of channels, so data, flags and weights have the same length.
`_chanshift_raw` (3889-3982) unpacks, calls `_chanshift_vis` and packs again; packing is modelled elsewhere.

### `Verif/MirUvw/Model.lean`

Baseline coordinates of old MIR files

Model of the part of `MirParser._make_v3_compliant` that turns baseline coordinates in wavelengths into meters
(mir_parser.py 4206–4249).

* `dist` of a row is the distance of its antennas (lines 4221–4230), `meas` the length of its coordinates (line 4231), which is
  calculated with any function `len`.
* Arithmetic is exact.  A factor from a length of zero is `none`: if the distance is zero too, it is NaN, and so is the median; others
  (infinite ones) are not modelled further.

### `Verif/MirVis/Model.lean`

MIR records become visibilities

Model of `Mir._init_from_mir_parser` (`src/pyuvdata/uvdata/mir.py` 266-822) with `_prep_and_insert_data` (187-264).

* Records of baselines (`Bl`) and spectra (`Sp`) are lists; each spectrum carries the record of its baseline and each baseline that of its
  integration, found by `_index_query` with header keys that are unique (lines 290-297; see C182). The dictionary `blhid_blt_order` (397-400) is
  then the row of the record.
* The code of a polarization is looked up by `codes` (356-366), a number of the data gives its number in UVData.
* Windows are made in the order of a python set (410): `order`, any list of the same keys.
* Visibilities are loaded with their flags and weights (232-237; C178, C179, C191-C196).
* Left out: warnings, sidereal times (C214), antenna positions and the catalog (C19-C21, C66), the rotation of coordinates by the position angle (754-759; C69).

### `Verif/Miriad/HeadModel.lean`

Headers of Miriad files

Model of parts of `src/pyuvdata/uvdata/miriad.py`: antennas (lines 1805-1842 and 1930-1942 of `write_miriad`; 392-433, 533-581 and
606-619 of `_load_antpos`), frequencies (1715-1764 of `write_miriad`; 180-213 of `_load_miriad_variables`) and extra keywords
(1885-1928 of `write_miriad`; 70-171 of `_load_miriad_variables` and 675-688 of `_read_miriad_metadata`), and of `_wrvr` and `_get_d_type`
in `src/pyuvdata/uvdata/src/miriad_wrap.pyx` (378-384, 529-565).

### `Verif/Miriad/RowModel.lean`

Records of Miriad files and rows of objects

Model of lines 1666-1678 and 2023-2129 of `write_miriad` in `src/pyuvdata/uvdata/miriad.py` and of lines 962-1129, 1139-1140,
1176-1184, 1204-1339 and 1356-1366 of `read_miriad`.

A record has the baseline number, the start of the integration and its length, a polarization, uvw coordinates, data, flags and sample
counts of all channels and whatever else is written with each row (coordinates of the source and so on, `M`). Times are compared
exactly and integrations are not rounded to 32 bits. Rows of one file are ordered by a relation `le` on times, antennas and lengths of
integrations: the code sorts texts. Flags are true where data are flagged; the file holds the negation. `perDay` is the number 1.0027...
times pi over the seconds of a day, for lengths in the same units.

### `Verif/Miriad/SelModel.lean`

What a selection on reading a Miriad file keeps

Model of lines 776-938 of `read_miriad` in `src/pyuvdata/uvdata/miriad.py`, of `ij2bl`, `bl2ij` and `uv_selector` in
`src/pyuvdata/uvdata/aipy_extracts.py` (44-93, 201-246, 547-550), of `MKBL`, `GETI`, `GETJ` in
`src/pyuvdata/uvdata/src/miriad_wrap.pyx` (98-105) and of `uvselect_c`, `uvread_select` and `uvbasant_c` in
`src/pyuvdata/uvdata/src/uvio.c` (2259-2540, 3147-3530, 4893-4905).

Texts that name antennas are given after they were parsed (`parse_ants` is a list of items). Antenna numbers are natural numbers. The
table of antenna pairs of a clause is a function of the larger and the smaller number counted from one. Checks of types are left out,
as are the kinds of selection that `read_miriad` does not use.

### `Verif/MsAnt/Model.lean`

Antennas and the telescope in measurement sets

Model of `write_ms_antenna`, `read_ms_antenna`, `write_ms_observation`, `read_ms_observation` and `get_ms_telescope_location`
(`src/pyuvdata/utils/io/ms.py` 276-477, 1102-1195, 2102-2165) and of what `MS.read_ms` makes of them
(`src/pyuvdata/uvdata/ms.py` 951-988).

The table of antennas has a row for every number up to the largest. Positions are exact vectors. Names, numbers and positions of
antennas are in one list here; diameters are given for all antennas or for none. Files without `TELESCOPE_LOCATION` and the check of
the name of the frame are left out.

### `Verif/MsCat/Model.lean`

The catalog of phase centers in measurement sets

Model of `write_ms_field`, `write_ms_source`, `read_ms_field`, `read_ms_source`, `_parse_pyuvdata_frame_ref` and
`_parse_casa_frame_ref` (`src/pyuvdata/utils/io/ms.py` 121-174, 219-273, 565-817, 1455-1638) and of the lines of `MS.read_ms` that
put the two tables together (`src/pyuvdata/uvdata/ms.py` 995-1019).

A catalog is a list of numbers with entries, in its order. Entries are sidereal (a point) or an ephemeris (a list of times with
points); the other types have frames without a name in CASA and are refused with them. Numbers are exact; conversions of times are
left out. Proper motions of an ephemeris are one pair of numbers here, in the code an array after reading. The warning for
samples of the same time is left out.

### `Verif/MsHist/Model.lean`

Histories in measurement sets

Model of `write_ms_history` and `read_ms_history` (`src/pyuvdata/utils/io/ms.py` 954-1099, 820-951).

* A history is the list of its lines (`splitlines`, 999). A row of the table HISTORY is the list of its nine entries; numbers are kept as text, since they
  are written by `str` and read by `int` and `float`. Messages are single lines.
* The table has the columns APP_PARAMS and CLI_COMMAND (875-884).
* Left out: the version that is appended (943-945; C40), warnings.

### `Verif/MsVis/Model.lean`

Visibilities in measurement sets

Model of `MS.write_ms`, `MS._read_ms_main` and `MS.read_ms` (`src/pyuvdata/uvdata/ms.py` 45-374, 376-824, 826-1038) and of the
tables they use besides the main table: `write_ms_data_description`, `write_ms_polarization`, `write_ms_spectral_window`,
`write_ms_field` and the functions that read them (`src/pyuvdata/utils/io/ms.py` 480-562, 565-693, 792-817, 1198-1333, 1759-1873).

A measurement set is a list of records with the tables of data descriptions, windows, polarizations and fields. A cell of the
main table with visibilities is a list (channels) of lists (polarizations). Times, lengths and weights are exact, so that the
conversions of times are left out. An entry of the catalog of phase centers is kept as it is (see `Verif.MsCat` for what
becomes of it). Not modelled: phasing of unprojected data (`force_phase`), columns of model and corrected data, `read_weights=False`,
files without `WEIGHT_SPECTRUM`, history, antennas and the other tables; the final `reorder_pols` of `read_ms`
(see `Verif.Pol`) and check (see `Verif.Check`).

### `Verif/Mwa/ChanModel.lean`

Coarse channels, flags and times of MWA files

Model of the parts of `MWACorrFITS.read_mwa_corr_fits`, `_read_fits_file`, `_read_flag_file`, `flag_init` and `read_metafits`
(`src/pyuvdata/uvdata/mwa_corr_fits.py`) that find the place of a file (111-170, 678-714, 737-740, 1606-1666) and the flags
(535-629, 744-773, 1735-1758).

Coarse channels are numbers, a file has a number, the times it holds and values. Numbers are exact. The polarizations, which are
flagged alike, and warnings are left out.

### `Verif/Mwa/CorrModel.lean`

Corrections of MWA data

Model of `van_vleck_crosses_int`, `van_vleck_crosses_cheby`, `van_vleck_correction`, `_flag_small_auto_ants`,
`_correct_coarse_band`, `_apply_corrections`, `correct_cable_length` and the end of `read_mwa_corr_fits`
(`src/pyuvdata/uvdata/mwa_corr_fits.py` 361-531, 775-1294, 1753-1848) and of `_get_cheby_coeff`, `van_vleck_cheby` and
`get_cable_len_diffs` (`src/pyuvdata/uvdata/corr_fits.pyx` 154-196, 288-395).

Numbers are exact. The equation solved by Newton's method is a parameter: `solve k s1 s2` is what the loop ends with for a positive `k`.
Rounding to integers, time and the reading of coefficient files are left out.

### `Verif/Mwa/Model.lean`

Visibilities of the first MWA correlator

Model of `pfb_mapper`, `input_output_mapping` and `generate_map` (`src/pyuvdata/uvdata/corr_fits.pyx` 28-120) and of the parts of
`MWACorrFITS` that put visibilities in place: lines 60-93 of `src/pyuvdata/uvdata/mwa_corr_fits.py` (antennas in the order of their
correlator numbers), 1584-1604 (antenna pairs), 1668-1686 (polarizations, inputs), 715-734 (the map is applied to a file) and 1831.

There are 128 antennas with two polarizations each, as in the loops of `generate_map`. A file holds numbers in a ring with
conjugation; time and channel, which are the same for all of this, are left out, as are corrections of the values.

### `Verif/MwaBeam/Model.lean`

Reading beams of the MWA

Model of `/repo/src/pyuvdata/uvbeam/mwa_beam.py`.  The file holds one table of spherical wave coefficients
for each feed, dipole and frequency, and one table of modes common to all of them.

Real numbers are a type `K`, complex numbers a type `C`; sine, cosine, square root, `exp` of an imaginary argument and
the Legendre functions of scipy are the fields of `Env`, about which nothing is assumed in the definitions.

### `Verif/NewBeam/Model.lean`

New beams

Model of `new_uvbeam` (`src/pyuvdata/uvbeam/initializers.py` 152-377) with the parts of `UVBeam.check` (`src/pyuvdata/uvbeam/uvbeam.py` 580-684,
793-821) and `UVBase.check` (`src/pyuvdata/uvbase.py` 685-831) that decide whether a beam is made, and of the check of auto polarizations of power
beams (`uvbeam.py` 686-762).

* Arrays have a shape, and values at positions. Frequencies, axes and pixels are lists.
* Of types only that of the data (real or complex) is modelled: it decides whether power beams are made.
* Basis vectors that are not too long are a predicate (`short`) that stands for uvbeam.py 819-821 and for the range of their mean.
* Names and versions of telescope, feed and model, and the history, are left out.

### `Verif/NewCal/Model.lean`

New calibration objects

Model of `new_uvcal` (`src/pyuvdata/uvcal/initializers.py` 171-397) with the parts of `UVCal.check` (`src/pyuvdata/uvcal/uvcal.py` 1636-1744 and
the shapes that `UVBase.check` looks at) that decide whether an object is made, and of `new_uvcal_from_uvdata`
(`initializers.py` 445-658). `get_time_params` for times, `get_freq_params` and `get_spw_params` are those of `Verif.NewData`.

* Numbers are elements of an ordered field. The sidereal time is a function of the time (`lst`), the test for overlapping ranges is a
  parameter (`overlap`, see C93).
* The telescope is given as an object; the deprecated arguments that make one are left out. Of other keyword arguments only `spw_array` is
  modelled (which `new_uvcal_from_uvdata` passes on). The conventions, catalogs, history and the text of names other than "linear" and
  "circular" for Jones terms are left out.
* Arrays of solutions have a shape and values at positions.
* Not modelled of the checks: types, sidereal times and antenna positions.

### `Verif/NewData/Model.lean`

Model of `new_uvdata` and its helpers, `src/pyuvdata/uvdata/initializers.py`: `get_time_params` (20–83), `get_freq_params` (86–114),
`get_baseline_params` (117–123), `configure_blt_rectangularity` (126–227), `get_spw_params` (252–278) and the part of `new_uvdata`
(517–621) that makes the axes, windows and polarizations.

Times and frequencies are elements of an ordered field. `get_lst_for_time` is a function of one time, given by the caller. Times are one
number each (`new_uvdata`; `new_uvcal` also uses ranges). Antenna numbers are natural numbers. Checks of types, the telescope, the
catalog, uvws, the data arrays and the final `check` are not modelled.

### `Verif/Norm/Model.lean`

Normalization of visibilities by autocorrelations

Model of `UVData.normalize_by_autos`, `src/pyuvdata/uvdata/uvdata.py` 11885-12016.

Simplifications.  Numbers are exact: autocorrelations and weights are in an ordered field `K`, visibilities in a module
`V` over it, `re` is the real part, `sqrt` the square root.  Arrays are functions of positions.  `np.argsort` is not
stable: its result is a parameter.  `np.searchsorted` is the binary search of numpy also on arrays that are not sorted.

### `Verif/Phase/Model.lean`

Phasing of a data object

Model of the phasing methods of `UVData` (`src/pyuvdata/uvdata/uvdata.py`): `_check_for_cat_type`
(892-922), `_apply_w_proj` (4238-4316), `unproject_phase` (4318-4394), `_phase_dict_helper`
(4396-4594), `phase` (4596-4865), `set_uvws_from_antenna_positions` (4939-4984) and
`update_antenna_positions` (4986-5069).

Numbers are real or complex numbers; positions in the phase-center catalog are rational numbers as
in `Verif.PhaseCat`.  The positions of sources on the sky (`calc_app_coords`), the position angles
of frames (`calc_frame_pos_angle`) and the answers of JPL-Horizons are arbitrary functions.  The
data array is a list of rows of channels of polarizations.  Warnings are dropped.  A failing call
is an error without an object: no method changes the object before its last failing step, except
that `phase` may have added an entry to the catalog.

### `Verif/PhaseCat/Model.lean`

Model of the phase-center catalog: `src/pyuvdata/utils/phase_center_catalog.py` (`look_in_catalog` 14–211,
`generate_new_phase_center_id` 509–574, `generate_phase_center_cat_entry` 577–796) and the catalog methods of
`UVData` in `src/pyuvdata/uvdata/uvdata.py` 685–1406.

Simplifications.  A catalog is an association list in insertion order.  Floats are rationals; π/2 and the
one-milliarcsecond tolerance are parameters.  Epochs are numbers (strings and `Time` objects are not converted).
Every entry carries every key, as the entries made by `generate_phase_center_cat_entry` do.  Warnings are dropped.
The array with the phase-center IDs of the rows is a list.  Type errors on arguments are not modelled.

### `Verif/Phasing/Rot.lean`

Rotations of arrays of vectors

Model of `_rotate_matmul_wrapper`, `_rotate_one_axis` and `_rotate_two_axis`
(`src/pyuvdata/utils/phasing.py` lines 187-459).  Numbers are real numbers.

### `Verif/Phasing/Uvw.lean`

Calculation of baseline coordinates

Model of `calc_uvw` (`src/pyuvdata/utils/phasing.py` lines 462-756).  Numbers are real numbers.
Arrays with one entry per row have to have the same length here; numpy would repeat an array of
length one and refuse other lengths.

### `Verif/Pol/Model.lean`

Model of `src/pyuvdata/utils/pol.py`: the tables (34–84), `x_orientation_pol_map` (103–124), `polstr2num`
(148–200), `polnum2str` (204–252), `jstr2num` (256–303), `jnum2str` (307–353), `parse_polstr` (357–391),
`parse_jpolstr` (395–424), `conj_pol` (427–459), `reorder_conj_pols` (462–493), `determine_pol_order`
(496–529), and of `UVData.reorder_pols` (uvdata/uvdata.py 3703–3770).

Strings are lists of characters.  `KeyError`/`IndexError`/`ValueError` are `none`; warnings are dropped.
`str.lower` is modelled on ASCII.  The `lru_cache` wrapper (127–144) is not modelled: the functions are
pure.

### `Verif/ReadSel/Model.lean`

Selections when files are read, and reading several files

Model of `UVData.read` (`src/pyuvdata/uvdata/uvdata.py` 10437-11246): which keywords are handed to the function that reads the
file, which to `select` afterwards, and how several files are read and put together. The functions that read one file,
`UVData.select`, `UVData.__iadd__` and `UVData.fast_concat` are parameters here; `select`, `__add__` and `fast_concat` are modelled
elsewhere. Of the keywords only those of selections are kept. The auxiliary files of one FHD data set are one value.
The type of the files is known (recognizing it by name is not modelled).

### `Verif/Redund/AntRed.lean`

Model of `get_antenna_redundancies` with the grid algorithm, and C54.

### `Verif/Redund/Inflate.lean`

Model of `UVData.inflate_by_redundancy` (uvdata.py 8908–8970) up to the final reordering, and C55.

### `Verif/Redund/Model.lean`

Model of the search for redundant groups, `src/pyuvdata/utils/redundancy.py`.

* Vectors are lists of coordinates. `cdist(v, w) < tol` is `0 < tol` and squared distance `< tol²` (exact arithmetic).
* `np.argsort` is not stable; the order is a parameter, constrained by `Np.IsArgsort` in the theorems.
* A set of positions is the increasing list of its members; the hash of a `frozenset` is a parameter `hash`.
* `np.round` is a parameter `rnd`, constrained by `|x - rnd x| ≤ 1/2` in the theorems.

### `Verif/Resample/Auto.lean`

Resampling to a target time

Model of `UVData.resample_in_time` (uvdata.py 8111–8210), which decides whether to call `downsample_in_time` and
`upsample_in_time` (`Verif.Resample.Model`).  The order of rows between the two calls (`blt_order`) does not matter for the
second one, which looks at single rows.

### `Verif/Resample/Model.lean`

Model of `UVData.upsample_in_time`, uvdata.py 7394–7634, and `UVData.downsample_in_time`, uvdata.py 7636–8109.

* A row is one baseline-time with its cells; `ι` are the positions along frequency and polarization. Times are in days,
  integration times in seconds, both exact numbers of an ordered field; visibilities are vectors over that field.
* The arrays of new rows, which the code allocates at full size and fills from a running position, are lists here.
* Left out: phasing and unphasing of driftscan and unprojected data (7472–7495, 7588–7618 and the like), uvws, LSTs and
  apparent coordinates, which are calculated anew from times and antennas (`_harmonize_resample_arrays`, 7369–7390),
  `reorder_blts` at the end, `check`, warnings, history, objects without data.

### `Verif/Scan/Model.lean`

Scan numbers

Model of `UVData._set_scan_numbers` (`src/pyuvdata/uvdata/uvdata.py` 650-683), which numbers the scans of an object before it is
written to a measurement set (`src/pyuvdata/uvdata/ms.py` `write_ms`) or has other scans given to it.

`ndimage.label` and `find_objects` are modelled by what they give for one axis: a slice for each longest run of `True`.

### `Verif/Select/Model.lean`

Model of `UVData._select_preprocess` and `UVData._select_by_index`, `src/pyuvdata/uvdata/uvdata.py` lines 6507–7131.

* An attribute with a baseline-time axis is the list of its rows, one with a frequency axis the list of its channels;
  data, flags and sample counts are one array of cells `D`.  `rest` and `chRest` stand for all remaining attributes with
  that axis: `_select_by_index` treats all alike (lines 7065–7093).
* `list(set(a).intersection(b))` is modelled by a filter: its order is irrelevant as the result is sorted (line 6874).
* Not modelled: `ant_str`, type checks of the arguments, warnings, the history text, `keep_all_metadata=False`, and
  lines 7306–7322 of `select` (rectangularity, dropping of the flex-pol axis, `check`).

### `Verif/SetData/Model.lean`

Model of `set_data`, `set_flags` and `set_nsamples`, `src/pyuvdata/uvdata/uvdata.py` lines 3453–3457, 3498–3502 and 3545–3549, with
`_set_method_helper`, lines 3375–3412, on top of the models of `_key2inds`, `_convert_to_slices` and `_index_dset`. The three axes of the array are
baseline-time, frequency and polarization.

### `Verif/Sky/Model.lean`

Positions on the sky, row by row

Model of parts of `src/pyuvdata/utils/phasing.py`: `old_uvw_calc` and `undo_old_uvw_calc` (lines 24-92, with
the loops of `phasing.pyx`), `polar2_to_cart3` and `cart3_to_polar2` (95-184), `calc_frame_pos_angle`
(1572-1702), `interpolate_ephem` (1911-2038) and `calc_app_coords` (2041-2255).

Numbers are real numbers.  What astropy and ERFA compute for one position and one time is an
arbitrary function; the two functions `erfa.pas` and `erfa.ae2hd`, which are pure trigonometry, are written
out.  The cubic splines of scipy are an arbitrary function.  Arrays are lists.

### `Verif/Slices/Model.lean`

Model of `src/pyuvdata/utils/tools.py` lines 59–181 (`_convert_to_slices`, `slicify`).

Simplifications: indices are non-negative (`Nat`); `max_nslice_frac` is a rational and the product
`max_nslice_frac * Ninds` is exact (floating point in the code).

### `Verif/SumVis/Model.lean`

Sum and difference of the visibilities of two objects

Model of `UVData.sum_vis` and `diff_vis`, `src/pyuvdata/uvdata/uvdata.py` 6214-6465, and of `_combine_filenames`,
`src/pyuvdata/utils/tools.py` 21-56.

Simplifications.  Data are values of a group (an array as a whole).  Parameters other than data, history, extra keywords
and file names are values of a type `P` with a comparison `eq`.  Both objects are `UVData`.  The check of an object is a
parameter `ok`, apart from the one of the number of file names.  Warnings are left out.

### `Verif/TimeSel/Model.lean`

Model of `_select_times_helper`, `src/pyuvdata/utils/times.py` lines 324–534, and of `_check_range_overlap`,
`src/pyuvdata/utils/tools.py` lines 271–302, for two ranges.

Times are elements of an ordered field; `P` is the float `2 * np.pi`.  Scalars given for `times` or `lsts` are
one-element lists, nested lists are flattened (lines 392–394, 453–455).  Warnings are left out.

### `Verif/Track/Model.lean`

Tracks of positions on the sky

Model of `uvw_track_generator` (`src/pyuvdata/utils/phasing.py` lines 2356-2564) and of the part of
`calc_app_coords` (2041-2255) that deals with several sidereal positions.

A position is one value (longitude and latitude are always given together).  What astropy and ERFA compute
for one position and one time is an arbitrary function of the epoch, the position and the time; the site is fixed.
Position angles and baseline coordinates are arbitrary functions of what they are computed from for one row
(`Verif.Sky` and `Verif.Phase` have these functions; LSTs are functions of times, `Verif.Lst`).  `None` for an
epoch is `none`.  Errors are `none`.  Scalars are arrays of one element (lines 2482-2494).  Not modelled: sources
that are not sidereal, and Moon locations.

### `Verif/Uvh5/Model.lean`

Reading and writing parts of uvh5 files

Model of `src/pyuvdata/uvdata/uvh5.py`: the array part of `_get_data` (lines 758-984), `initialize_uvh5_file`
(1493-1523), `_check_header` (1527-1602) and `write_uvh5_part` (1740-1959), and of the arrays written by `write_uvh5`
(1358-1397).  The selections are what `_select_preprocess` returns: `None` or a list of positions for each axis.

Simplifications.  Reading is done through the model of `_index_dset` (`Verif.Hdf5`); fractions are exact.  Storing a
value in a dataset may change it (`cast`: single precision, integers), in the same way wherever it is done.  The
header of the file and the metadata of the object are opaque values apart from the history; comparing them is a
parameter.  Files are values, not paths: a file that does not exist is `none`.  Chunks and compression are left out.

## Which parts of the code are not modelled

* Readers and writers of file formats other than the parts of `uvfits.py`, `uvh5.py`, `ms.py`, `mir.py`, `mir_parser.py`, `mir_meta_data.py`, `mwa_corr_fits.py`, `miriad.py`, `calfits.py`, `beamfits.py`, `cst_beam.py` and `mwa_beam.py` named above: `fhd.py`,
  `calh5.py`, `ms_cal.py`, except for the index machinery and headers of `utils/io/hdf5.py`.
* `UVBeam` except for `select`, `__add__`, `interp` and what is named in the section above.
* Anything computed by astropy or ERFA; where a theorem needs such a result it is a parameter.
* Methods of `UVData`, `UVCal`, `UVFlag` and functions of `utils` that are not named in the section above.
* The additional checks in `UVCal.check` and `UVFlag.check`.


## Property by property

### C01 Baseline numbers decode back to the antenna pairs they encode

*Plan and model.* Encoder/decoder modelled on lists of Nat modulo 2^64 including the range checks and the three conventions; proved by case split on the convention and list induction.

*Status.* proved. Theorems: `Verif.Baseline.baseline_roundtrip`, `Verif.Baseline.encode_accepts_iff`.

*Note.* Empty or unequal-length arrays are undefined behaviour in the compiled code and are excluded by the acceptance theorem.

### C02 Distinct antenna pairs never share a baseline number within one call

*Plan and model.* Same model; order embedding proved from mixed-radix arithmetic.

*Status.* proved. Theorems: `Verif.Baseline.baseline_order_embedding`, `Verif.Baseline.baseline_count_distinct`.

### C03 Encoding never wraps 64-bit arithmetic and its output is always accepted by the decoder

*Plan and model.* uint64 arithmetic is modelled with explicit reduction mod 2^64; proved that the reduction is the identity.

*Status.* proved. Theorems: `Verif.Baseline.baseline_no_overflow`.

### C04 baseline_index_flip denotes the swapped antenna pair

*Plan and model.* Composition of the two modelled functions; proved from C01.

*Status.* proved. Theorems: `Verif.Baseline.flip_decodes_swapped`, `Verif.Baseline.flip_flip`, `Verif.Baseline.flip_succeeds`.

### C05 Miriad-convention baseline numbers identify the antenna pair

*Plan and model.* Full statement is false of the code (counterexample theorem); partial theorem for the pairs where it holds, with the exact characterisation.

*Status.* partial. Theorems: `Verif.Baseline.miriad_roundtrip_partial`, `Verif.Baseline.miriad_counterexample`.

*Note.* False of the code: pairs with the first antenna above 255 and the second at most 255 collide with other pairs. The partial theorem characterises exactly which single pairs survive.

### C06 Decoding an array of baseline numbers agrees with decoding each number alone

*Plan and model.* False for mixed arrays (witness); partial theorem: holds exactly when all numbers lie in one convention's band.

*Status.* partial. Theorems: `Verif.Baseline.decode_elementwise_partial`, `Verif.Baseline.decode_mixed_counterexample`.

*Note.* False for arrays that mix numbering schemes; the partial theorem is an exact characterisation.

### C07 Index lists converted to slices select the same elements

*Plan and model.* Loop modelled as a fold with the code's three state variables; proved by loop invariant. Descending and repeated lists are shown wrong by witness theorems.

*Status.* proved. Theorems: `Verif.Slices.convert_picks`, `Verif.Slices.convert_flag`, `Verif.Slices.convert_max_nslice`, `Verif.Slices.slicify_picks`, `Verif.Slices.convert_descending_counterexample`, `Verif.Slices.slicify_descending_counterexample`, `Verif.Slices.slicify_repeated_counterexample`, `Verif.Slices.convert_empty_counterexample`.

*Note.* Proved for every slice, integer, non-empty mask and strictly increasing non-empty list. False for descending, repeated and empty lists (witness theorems).

### C08 HDF5 partial reads return exactly the selected sub-array

*Plan and model.* Buffer modelled as a partial function initially undefined everywhere; blocks assigned in meshgrid order; proved every cell is written with the right value.

*Status.* proved. Theorems: `Verif.Hdf5.read_selected`, `Verif.Hdf5.lookup_total`, `Verif.Hdf5.shape_predicted`, `Verif.Hdf5.read_ndarray_counterexample`.

*Note.* Any number of axes. Integer ndarrays (as opposed to lists) are read wrongly, shown by a witness; h5py allows at most one index list.

### C09 HDF5 partial writes change exactly the selected cells

*Plan and model.* Same block machinery run in the write direction; frame property plus read-after-write.

*Status.* proved. Theorems: `Verif.Hdf5.write_selected`, `Verif.Hdf5.write_then_read`.

*Note.* Any number of axes, selections without repeated positions.

### C10 A reported baseline-time order is the actual order

*Plan and model.* Loop modelled with its ten flags; invariant: a flag that survives implies the prefix is sorted accordingly. The assertion in the middle is modelled as an error and shown reachable by valid data (witness).

*Status.* proved. Theorems: `Verif.BltAxis.blt_order_sound`, `Verif.BltAxis.blt_order_none`, `Verif.BltAxis.blt_order_assertion_counterexample`.

*Note.* A returned order is the actual order; None means no listed order holds. The internal assertion can fire on valid data, recorded as a counterexample.

### C11 Reported rectangularity is real

*Plan and model.* Function modelled branch by branch. Without an order hint: full soundness theorem. With an order hint: witness that it is wrong for duplicate rows; partial theorem when rows are sorted as claimed and (baseline,time) pairs are unique.

*Status.* proved. Theorems: `Verif.BltAxis.rect_baseline_major`, `Verif.BltAxis.rect_time_major`, `Verif.BltAxis.rect_complete`, `Verif.BltAxis.rect_hint_counterexample`.

*Note.* Sound and complete without a blt_order hint; with a hint, sound provided the hint is true and no (baseline,time) pair repeats; counterexample shows the short cut accepts duplicate rows.

### C12 reorder_blts moves whole records and sorts them as requested

*Plan and model.* Struct-of-arrays model with one list per attribute; result is the image of the record list under one index permutation (Perm) and Sorted w.r.t. the lexicographic keys.

*Status.* proved. Theorems: `Verif.Blt.reorder_blts_sorts`, `Verif.Blt.reorder_blts_autos_first`, `Verif.Blt.reorder_blts_refuses`, `Verif.Blt.reorder_blts_index`, `Verif.Blt.reorder_blts_index_counterexample`, `Verif.Blt.reorder_autos_rect_counterexample`.

*Note.* Named orders are proved to permute whole records and sort them, with autos_first; argsort ties are left open (any argsort). For an explicit index array the length is the only thing checked by the code besides range, see the counterexample theorems for what the code accepts but should not.

### C13 conjugate_bls preserves the physics of every record

*Plan and model.* Model of the row loop; flag and nsample arrays are shown NOT to follow the polarization swap (witness), so the all-arrays statement is partial.

*Status.* proved. Theorems: `Verif.Conj.conjugate_rows`, `Verif.Conj.convention_established`, `Verif.Conj.conjugate_twice`, `Verif.Conj.conjugate_numbering`, `Verif.Conj.conjugate_refuses`, `Verif.Conj.conjugate_numbering_counterexample`, `Verif.Conj.conjugate_flags_counterexample`, `Verif.Conj.conjugate_layout_counterexample`.

*Note.* Antennas, uvw and visibilities are proved as stated, for every convention. Three defects are recorded as theorems: flags and sample counts are not moved to the conjugate polarization; baseline numbers can mix two formulas; the rectangularity attributes go stale.

### C14 antpair2ind returns exactly the rows of an antenna pair

*Plan and model.* Rectangular and general branches modelled; ordered=True proved; ordered=False false for descending pairs of rows (witness through slicify), partial theorem for the rest.

*Status.* partial. Theorems: `Verif.AntPair.antpair2ind_exact`, `Verif.AntPair.antpair2ind_unordered_partial`, `Verif.AntPair.antpair2ind_auto`, `Verif.AntPair.laidOut_of_rect`, `Verif.AntPair.antpair2ind_unordered_counterexample`.

*Note.* ordered=True is proved in full. ordered=False is false as stated: when rows of (j, i) precede rows of (i, j) the descending slice can be empty (counterexample); it is proved when the rows of (i, j) come first.

### C15 Index caches never serve stale answers

*Plan and model.* State machine with the two caches; coherence invariant by induction over the operation list. Operations that change rectangularity attributes without clearing the caches are shown to break it (witness).

*Status.* proved. Theorems: `Verif.Cache.caches_fresh`, `Verif.Cache.caches_fresh_layout`, `Verif.Cache.orientation_stale_counterexample`, `Verif.Cache.early_query_counterexample`.

*Note.* caches_fresh covers every history of lookups and assignments to the antenna and polarization arrays; caches_fresh_layout adds changes of the attributes that clear nothing. Two limits are shown by counterexample: changing telescope.x_orientation leaves stale answers for polarization names, and a lookup made while the layout attributes are untruthful leaves a wrong answer behind.

### C16 Polarization names and numbers are inverse to each other and conjugation is an involution

*Plan and model.* Tables transcribed; string replacement and lower-casing modelled on character lists; finite table decided completely by kernel evaluation, lifted to arbitrary lists of polarizations by induction.

*Status.* proved. Theorems: `Verif.Pol.conj_feed_table`, `Verif.Pol.conj_hv_counterexample`, `Verif.Pol.conj_involution`, `Verif.Pol.conj_name_involution`, `Verif.Pol.conj_name_number`, `Verif.Pol.conj_swaps_feeds`, `Verif.Pol.conj_total`, `Verif.Pol.jnum_roundtrip`, `Verif.Pol.oriented_names`, `Verif.Pol.parse_polstr_stable`, `Verif.Pol.pollist_roundtrip`, `Verif.Pol.polnum_domain`, `Verif.Pol.polnum_roundtrip`, `Verif.Pol.polstr_case_insensitive`.

*Note.* Tables are decided in full; hv strings with x_orientation fail as in the counterexample.

### C17 reorder_conj_pols pairs each polarization with its conjugate

*Plan and model.* List model of the where/first-match loop; proved from conj involution and distinctness.

*Status.* proved. Theorems: `Verif.Pol.reorder_conj_succeeds_iff`, `Verif.Pol.reorder_conj_correct`.

### C18 reorder_pols keeps visibilities attached to their polarization

*Plan and model.* take along the polarization axis with a sorting permutation; label/data association is preserved as a multiset and order is Sorted. A user-supplied index list with repeats is accepted (witness).

*Status.* proved. Theorems: `Verif.Pol.reorder_pols_correct`, `Verif.Pol.reorder_pols_index_counterexample`.

*Note.* Named orders are permutations into the documented order; a user index array is not checked (counterexample).

### C19 New phase-center IDs are always fresh

*Plan and model.* Modelled on finite ID sets; least-unused proof.

*Status.* proved. Theorems: `Verif.PhaseCat.generateId_fresh`, `Verif.PhaseCat.generateId_default`.

### C20 Phase-center bookkeeping stays consistent over any history of catalog operations

*Plan and model.* State machine over (catalog, id array, Nphase); invariant by induction.

*Status.* partial. Theorems: `Verif.PhaseCat.history_consistent_partial`, `Verif.PhaseCat.history_rows`, `Verif.PhaseCat.merge_repeated_counterexample`.

*Note.* Holds for every sequence of operations in which merges name each entry once. merge_phase_centers([0, 0]) removes the entry its own rows point at (counterexample).

### C21 Merging two catalogs never changes what a row points at

*Plan and model.* Loop over the other catalog modelled; per-row pointer preservation by loop invariant.

*Status.* partial. Theorems: `Verif.PhaseCat.consolidate_keeps`, `Verif.PhaseCat.combined_rows_partial`, `Verif.PhaseCat.consolidate_twins_counterexample`.

*Note.* consolidate_keeps is unconditional for the object whose catalog is changed. That every row of the other object still finds its entry needs that no entry matches two entries of the reference catalog; otherwise one entry takes the place of both in turn and one ID is lost (counterexample).

### C22 The channel ordering helper returns a permutation that sorts as requested

*Plan and model.* Branch-by-branch model; permutation and sortedness theorems.

*Status.* proved. Theorems: `Verif.FreqSort.sort_freq_windows`, `Verif.FreqSort.sort_freq_channels`, `Verif.FreqSort.sort_freq_index`, `Verif.FreqSort.sort_freq_index_ok`, `Verif.FreqSort.sort_freq_noop`, `Verif.FreqSort.sort_freq_none`.

*Note.* For any argsort that sorts, stable or not. None stands for the identity arrangement. Hypothesis: every channel belongs to a listed window, windows are listed once and are not empty.

### C23 Flexible-polarization conversion loses nothing

*Plan and model.* Index maps modelled arithmetically and on lists; round trip by index arithmetic.

*Status.* partial. Theorems: `Verif.FlexPol.roundtrip_partial`, `Verif.FlexPol.roundtrip_fails`, `Verif.FlexPol.roundtrip_counterexample`, `Verif.FlexPol.convert_channels`, `Verif.FlexPol.convert_refuses`.

*Note.* Conversion proved for all objects: each visibility goes to a channel of its frequency and width in a window of its polarization. The way back restores the object when no two windows have the same channels. It is false in general: with two windows of equal channels and several polarizations the way back raises ValueError, proved for all such objects.

### C24 Redundant groups partition the baselines

*Plan and model.* Adjacency abstracted as an arbitrary symmetric reflexive relation (the KD-tree is trusted); clique logic modelled; partition theorem.

*Status.* partial. Theorems: `Verif.Redund.find_clusters_strict`, `Verif.Redund.find_clusters_strict_succeeds`, `Verif.Redund.find_clusters_loose_partial`, `Verif.Redund.find_clusters_loose_counterexample`, `Verif.Redund.grid_partition`.

*Note.* Full statement for strict=True and for the grid algorithm. Without strict, locations in a chain longer than the tolerance are in no group (counterexample); what is proved is that groups are disjoint, non-empty and complete. Exact arithmetic; the hash of a frozenset is assumed injective.

### C25 Members of a redundant group really are redundant

*Plan and model.* Clique property from the adjacency check; grid bound from the cell-neighbour rule over the rationals.

*Status.* proved. Theorems: `Verif.Redund.find_clusters_strict`, `Verif.Redund.grid_redundant`, `Verif.Redund.grid_groups_apart`, `Verif.Redund.grid_far_members_counterexample`, `Verif.Redund.grid_equal_vectors_counterexample`, `Verif.Redund.grid_near_vectors_counterexample`.

*Note.* Grid: every member is closer than the tolerance to the first one, any two differ by at most 3/4 tol per coordinate (up to 1.3 tol in distance). The counterexamples show that the bound tol itself fails, and that equal vectors can be put into different groups.

### C26 Applying flags only ever adds flags and adds exactly the requested ones

*Plan and model.* Row-wise OR modelled on baseline lookup; monotonicity and exactness. When polarization orders differ the code relabels without moving flags (witness), so the statement is partial.

*Status.* partial. Theorems: `Verif.Flag.apply_bl_exact`, `Verif.Flag.apply_bl_monotone`, `Verif.Flag.apply_bl_labels`, `Verif.Flag.apply_bl_raises`, `Verif.Flag.apply_wf_exact`, `Verif.Flag.apply_an_exact`, `Verif.Flag.apply_pol_order_counterexample`, `Verif.Flag.apply_times_sign_counterexample`, `Verif.Flag.apply_row_order_counterexample`, `Verif.Flag.apply_reversed_counterexample`.

*Note.* Monotonicity and exactness are proved for all inputs, for the three types. Matching by label holds under the stated alignment (same time order within each pair, same polarization order); four counterexamples show the misplacements when it fails: polarization order, sign of the time comparison, row order, pair direction.

### C27 Boolean collapse methods mean what they say

*Plan and model.* Modelled through the code's any/all; two-stage law by induction.

*Status.* proved. Theorems: `Verif.Collapse.or_collapse_iff`, `Verif.Collapse.and_collapse_iff`, `Verif.Collapse.or_collapse_two_stage`, `Verif.Collapse.and_collapse_two_stage`, `Verif.Collapse.bool_collapse_refuses`.

*Note.* Per cell of the collapsed array.

### C28 mean_collapse is the weighted mean with zero-weight entries ignored

*Plan and model.* Values modelled as rationals extended with inf; branch order of the np.where calls kept.

*Status.* partial. Theorems: `Verif.Collapse.mean_collapse_eq`, `Verif.Collapse.mean_collapse_default`, `Verif.Collapse.mean_collapse_no_nan`, `Verif.Collapse.mean_collapse_zero_weight`, `Verif.Collapse.mean_collapse_ignores_zero_weight`, `Verif.Collapse.mean_collapse_ignores_inf`, `Verif.Collapse.mean_collapse_perm`, `Verif.Collapse.mean_collapse_between`, `Verif.Collapse.mean_collapse_two_stage`, `Verif.Collapse.absmean_collapse_eq`, `Verif.Collapse.quadmean_collapse`, `Verif.Collapse.mean_collapse_nan_counterexample`, `Verif.Collapse.mean_collapse_tiny_weight_counterexample`.

*Note.* Proved for data without NaN, in exact arithmetic. The full statement fails: a NaN of zero weight makes the cell NaN, and a total weight in (0, 1e-10] gives infinity; both are shown on concrete cells.

### C29 Broadcasting a waterfall to baselines puts each flag at its own time

*Plan and model.* The code pairs sorted unique times with stored rows; theorem for sorted-unique waterfalls (partial), witness showing misplacement for an unsorted one obtained by adding two objects.

*Status.* partial. Theorems: `Verif.Flag.to_baseline_wf_partial`, `Verif.Flag.to_baseline_wf_pols`, `Verif.Flag.to_baseline_an`, `Verif.Flag.to_baseline_unsorted_counterexample`.

*Note.* Proved for waterfalls with increasing times whose times are separated by more than the tolerance. False for other orders: the counterexample joins two waterfalls with __add__ and broadcasts the sum.

### C30 Collapsing to a waterfall with OR flags exactly the times with a flagged baseline

*Plan and model.* Per-time row selection modelled, combined with C27.

*Status.* proved. Theorems: `Verif.Flag.to_waterfall_bl`, `Verif.Flag.to_waterfall_an`.

### C31 Adding two objects keeps every visibility attached to its own labels

*Plan and model.* Axis-merge model (intersection, reorder, append, assign by position). Full statement is false (witness theorem); partial theorem under the order condition per axis that the code silently relies on.

*Status.* partial. Theorems: `Verif.Add.add_label_sets`, `Verif.Add.add_row_metadata`, `Verif.Add.add_keeps_this`, `Verif.Add.add_pads`, `Verif.Add.add_keeps_other_partial`, `Verif.Add.overlapsFirst_of`, `Verif.Add.add_keeps_other_counterexample`.

*Note.* Labels, metadata, cells of the first object and padding: proved without condition. Cells of the second object: only if along each axis its labels that both objects have come before the new ones (in particular if an axis is disjoint or contained); without this the claim is false (counterexample: two frequencies exchange their visibilities).

### C32 Adding objects never overwrites valid data

*Plan and model.* Overlap guard modelled over the cartesian product of the three intersections.

*Status.* proved. Theorems: `Verif.Add.add_outcome`, `Verif.Add.add_never_loses_this`.

*Note.* Exact outcome for all objects with distinct labels.

### C33 fast_concat is plain concatenation along the chosen axis

*Plan and model.* Struct-of-arrays concatenation; slicing the result by block returns the inputs.

*Status.* partial. Theorems: `Verif.Concat.concat_blt`, `Verif.Concat.concat_freq`, `Verif.Concat.concat_pol`, `Verif.Concat.concat_accepts_partial`, `Verif.Concat.concat_times_counterexample`, `Verif.Concat.concat_flex_counterexample`.

*Note.* Blocks, unchanged attributes and counts: proved for any number of objects on every axis. Refusal of incompatible inputs: the exact condition is proved, but it does not cover all incompatible inputs (times along frequency and polarization, polarizations of flexible windows along baseline-time: counterexamples).

### C34 select keeps exactly the rows, channels and polarizations that satisfy every criterion

*Plan and model.* Index-set computation modelled as in the code (sets, intersections, sorted); membership characterised independently. Selecting freq_chans on an axis with repeated frequencies keeps extra channels (witness).

*Status.* partial. Theorems: `Verif.Select.select_exact`, `Verif.Select.select_rows_exact`, `Verif.Select.select_chans_exact`, `Verif.Select.select_cells`, `Verif.Select.select_labels`, `Verif.Select.select_counts`, `Verif.Select.select_windows`, `Verif.Select.select_bl_numbers`, `Verif.Select.select_pair_direction_counterexample`, `Verif.Select.select_freq_chans_counterexample`, `Verif.Select.select_empty_counterexample`, `Verif.Select.select_bls_pols_counterexample`, `Verif.Select.select_freqs_refused`, `Verif.Select.select_one_per_window_counterexample`.

*Note.* Rows, channels, polarizations, windows and cells are characterised exactly for every request that is not refused. Documented effects refuted by witnesses: pair direction with rows in both directions, freq_chans with repeated frequencies, empty frequency or polarization lists, bls mixing tuples with and without polarization, and a ValueError from an empty array when one channel is chosen from each of several windows or one frequency is named twice (select_freqs_refused says exactly when).

### C35 Selections commute and compose

*Plan and model.* Corollary of C34 on filter composition.

*Status.* partial. Theorems: `Verif.Select.select_commute_partial`, `Verif.Select.select_both_partial`, `Verif.Select.select_rows_chans`, `Verif.Select.select_blt_inds_counterexample`, `Verif.Select.select_bls_counterexample`.

*Note.* Proved for all criteria on values when each pair occurs in one direction; blt_inds and bls with both directions do not commute (witnesses). Row and channel selections always commute.

### C36 Time selections pick exactly the matching times

*Plan and model.* Branch-by-branch model over rationals. For objects with time ranges (UVCal) the wrapped LST-range branch is wrong (witness) so that branch is partial.

*Status.* partial. Theorems: `Verif.TimeSel.select_times`, `Verif.TimeSel.select_lsts`, `Verif.TimeSel.select_times_ranges`, `Verif.TimeSel.select_time_range`, `Verif.TimeSel.onArc_iff`, `Verif.TimeSel.select_lst_range`, `Verif.TimeSel.select_one_selector`, `Verif.TimeSel.overlap_spec`, `Verif.TimeSel.overlap_interior`, `Verif.TimeSel.select_time_range_ranges`, `Verif.TimeSel.select_lsts_ranges_partial`, `Verif.TimeSel.select_lsts_ranges_counterexample`, `Verif.TimeSel.select_lst_range_ranges_counterexample`.

*Note.* Everything proved for time arrays; for objects with time ranges the LST selectors are refuted by witnesses.

### C37 Upsampling in time conserves every integration

*Plan and model.* Offset arithmetic over the rationals; tiling theorem. Integrations slightly above max_int_time but within tolerance are dropped by the code (witness), so conservation is partial.

*Status.* partial. Theorems: `Verif.Resample.upsample_cuts_partial`, `Verif.Resample.upsample_conserves_partial`, `Verif.Resample.upsample_short`, `Verif.Resample.upsample_loses`, `Verif.Resample.upsample_refuses`, `Verif.Resample.upsample_counterexample`.

*Note.* Proved if no integration is over the limit but within the 1 ms tolerance of it. Such integrations are lost whenever another one is cut (upsample_loses, witness upsample_counterexample).

### C38 Downsampling in time conserves integration time and averages what it says

*Plan and model.* Both loops modelled; agreement of the two loops, partition of the index list into windows, conservation. The float test in n_times mode is modelled with its tolerance: agreement proved below 10^5 samples and refuted above (witness).

*Status.* partial. Theorems: `Verif.Resample.downsample_rows`, `Verif.Resample.downsample_nothing`, `Verif.Resample.downsample_outcome`, `Verif.Resample.downsample_conserves`, `Verif.Resample.fill_windows`, `Verif.Resample.windows_unique`, `Verif.Resample.countable_std`, `Verif.Resample.downsample_counterexample`.

*Note.* Complete for min_int_time. For n_times_to_avg with keep_ragged the number of rows is foreseen right if (number of times)*1e-5 + n*1e-8 < 1; beyond that AssertionError is possible (witness: 100173 times, n = 317).

### C39 Frequency averaging accounts for every channel of every window

*Plan and model.* Modelled per window; partition and conservation proved. The mask-index slip for second and later windows is modelled: fully flagged channels there raise IndexError or use another channel's mask (witness), so the data part is partial.

*Status.* partial. Theorems: `Verif.FreqAvg.frequencyAverage_windows_partial`, `Verif.FreqAvg.frequencyAverage_one`, `Verif.FreqAvg.frequencyAverage_merged`, `Verif.FreqAvg.frequencyAverage_error`, `Verif.FreqAvg.frequencyAverage_fails`, `Verif.FreqAvg.width_conserved`, `Verif.FreqAvg.groups_spec`, `Verif.FreqAvg.frequencyAverage_error_counterexample`, `Verif.FreqAvg.frequencyAverage_data_counterexample`.

*Note.* Groups, frequencies, widths and flags: always. Data and nsamples: everywhere with one window (or respect_spws=False), otherwise in the first window and wherever not all of a group is flagged. In later windows fully flagged channels raise IndexError (exact condition proved) or come out as zero (witnesses).

### C40 History merging appends exactly the words that are missing, in order

*Plan and model.* Loop with in-place deletion modelled on word lists with an arbitrary containment test; proved equal to a filter.

*Status.* proved. Theorems: `Verif.History.history_addition`, `Verif.History.words_exist`, `Verif.History.history_complete`.

*Note.* Words are the maximal pieces between single blanks, as str.split(" ") makes them; line breaks are not word separators for the word test, exactly as in the code.

### C41 The lists of antenna pairs and antennas are exactly those in the data

*Plan and model.* Uses the number decoding (C01) on the subset of rows that the strided read visits.

*Status.* proved. Theorems: `Verif.AntPair.get_antpairs_exact`, `Verif.AntPair.get_ants_exact`.

### C42 get_data returns exactly the visibilities that the key names

*Plan and model.* Model of key resolution, of the polarization reordering for conjugated rows and of the slicing helper, over the antenna-pair lookup of C14.

*Status.* partial. Theorems: `Verif.GetData.get_data_pair_pol`, `Verif.GetData.get_data_pair_pol_refuses`, `Verif.GetData.get_data_pair_pol_mixed`, `Verif.GetData.get_data_auto_pol`, `Verif.GetData.get_data_pol`, `Verif.GetData.get_data_pair_partial`, `Verif.GetData.get_data_pair_open`, `Verif.GetData.get_data_baseline`, `Verif.GetData.get_data_reversed`, `Verif.GetData.get_data_pair_counterexample`.

*Note.* Exact for a pair with a polarization, for a polarization and for a baseline number. The claim is false for some pair keys: with polarizations ordered like [xy, yx] the conjugated rows select no polarization at all (counterexample), and reversed rows are dropped without a warning when the polarizations are not closed under conjugation.

### C43 The automatically assigned phase-center ID is the lowest unused one

*Plan and model.* Same model as C19, with set.pop as an arbitrary choice function; the counterexample uses the table layout of CPython.

*Status.* partial. Theorems: `Verif.PhaseCat.generateId_smallest_partial`, `Verif.PhaseCat.generateId_smallest_counterexample`.

*Note.* Holds when the IDs in use are the numbers below their count. In general set.pop may return a larger one (counterexample with the set layout of CPython).

### C44 Catalog entries obey the documented rules

*Plan and model.* Branch-by-branch model of the checks and conversions; the rules are stated as a separate structure.

*Status.* proved. Theorems: `Verif.PhaseCat.entry_wellformed`, `Verif.PhaseCat.wellformed_accepted`.

### C45 Splitting a phase center moves exactly the selected rows

*Plan and model.* Model of split and of the add/update/rename helpers it calls, over the catalog model of C20.

*Status.* partial. Theorems: `Verif.PhaseCat.split_moves_partial`, `Verif.PhaseCat.split_default_name_counterexample`.

*Note.* Holds for a new name that is not in use. With the default name the duplicate search finds the old entry and nothing is split, without an error (counterexample).

### C46 Merging phase centers relabels exactly the merged rows

*Plan and model.* Same catalog model; entry comparison is tied to a separate definition of equivalence within tolerances.

*Status.* proved. Theorems: `Verif.PhaseCat.merge_exact`, `Verif.PhaseCat.merge_matches`.

### C47 Reordering channels moves each channel as a whole

*Plan and model.* Model of reorder_freqs over the model of C22; a channel is a record and the arrays of the object are shown to be the columns of a rearranged list of records.

*Status.* proved. Theorems: `Verif.FreqSort.reorder_freqs_records`, `Verif.FreqSort.firstOrder_spec`, `Verif.FreqSort.reorder_freqs_spw_array_counterexample`.

*Note.* When the channels already are in the requested order nothing is touched, so the window list itself may stay unsorted (counterexample theorem). The final check() is not modelled.

### C48 Broadcasting a waterfall and collapsing it again gives it back

*Plan and model.* Composition of the models of C29 and C30.

*Status.* proved. Theorems: `Verif.Flag.to_antenna_to_waterfall`, `Verif.Flag.to_baseline_to_waterfall`.

*Note.* Waterfalls with increasing times.

### C49 Conversion between flags and metrics loses nothing and weights zero out exactly the dead rows and channels

*Plan and model.* and_rows_cols through its sums and quotients (exact arithmetic), the weight update as a fold over antenna pairs.

*Status.* proved. Theorems: `Verif.Flag.andRowsCols_iff`, `Verif.Flag.to_flag_exact`, `Verif.Flag.to_metric_to_flag`, `Verif.Flag.to_metric_to_flag_outside`, `Verif.Flag.convert_wgts_bl`, `Verif.Flag.convert_wgts_wf`.

*Note.* Quotients are exact. The antenna type of convert_wgts, which is the waterfall case for each antenna, is not modelled.

### C50 flags2waterfall is zero exactly where nothing is flagged and one exactly where everything is

*Plan and model.* Mean over the rows of each distinct time, exact arithmetic.

*Status.* proved. Theorems: `Verif.Flag.flags2waterfall_pol`, `Verif.Flag.flags2waterfall_nopol`.

*Note.* For UVData; the UVCal branch is not modelled. Exact arithmetic.

### C51 Combining flags with | flags exactly what either object flags

*Plan and model.* Elementwise model. The last part is false (labels are not compared): witness theorem; the rest is proved.

*Status.* partial. Theorems: `Verif.Flag.or_flags_exact`, `Verif.Flag.or_flags_algebra`, `Verif.Flag.or_flags_labels_counterexample`.

*Note.* The label part is false: __or__ compares no labels.

### C52 Concatenating flag objects keeps every flag under its labels

*Plan and model.* Labels and arrays are concatenated separately in the model; the theorem compares labelled cells.

*Status.* proved. Theorems: `Verif.Flag.add_wf_cells`.

*Note.* Waterfalls in flag mode; label comparison without tolerance.

### C53 Of two opposite baseline vectors exactly one is reversed

*Plan and model.* Lines 229-238 over an ordered field (np.isclose(x, 0, atol=tol) is |x| <= tol).

*Status.* proved. Theorems: `Verif.Redund.orient_exactly_one`, `Verif.Redund.orient_opposite`, `Verif.Redund.orient_near_counterexample`.

*Note.* The counterexample records that vectors closer than the tolerance can be oriented oppositely. Exact arithmetic (np.isclose with b = 0).

### C54 Antenna redundancy groups contain every pair of antennas once, in one direction

*Plan and model.* Built from the models of C01-C03 (baseline numbers), C24/C25 (grid algorithm) and C53.

*Status.* proved. Theorems: `Verif.Redund.antenna_redundancies`.

*Note.* Grid algorithm (the default). Exact arithmetic.

### C55 Inflating by redundancy copies the data of one baseline to its whole group

*Plan and model.* The index map (blt_map, full_baselines) before the final reordering. The last part is false if two baselines of a group are in the data (witness).

*Status.* partial. Theorems: `Verif.Redund.inflate_length`, `Verif.Redund.inflate_rows`, `Verif.Redund.inflate_block`, `Verif.Redund.inflate_missing`, `Verif.Redund.inflate_keeps_partial`, `Verif.Redund.inflate_keeps_counterexample`.

*Note.* The last part needs that no group has two baselines in the data, else the data of all but the first are lost.

### C56 The rows of a sum are sorted by time and baseline

*Plan and model.* False if the rows that both have come in different orders: the sort uses labels taken before the first object was reordered (witness). Partial theorem if they come in the same order.

*Status.* partial. Theorems: `Verif.Add.add_rows_sorted_partial`, `Verif.Add.add_rows_sorted_counterexample`.

*Note.* Proved if shared rows come in the same order in both objects; false otherwise (counterexample).

### C57 Rows put together by fast_concat keep their phase centers

*Plan and model.* Tree of merges on top of the catalog model. Rows of the first object: proved for any number of objects. All rows: proved for one other object, false for two others (witness: the second object's row ends up at the third object's source).

*Status.* partial. Theorems: `Verif.Concat.concat_keeps_this`, `Verif.Concat.concat_two_partial`, `Verif.Concat.concat_phase_counterexample`.

*Note.* First object: any number of objects. All rows: one other object. False for three objects (counterexample).

### C58 Averaging the pieces of an upsampled integration restores it

*Plan and model.* Follows from the tiling of C37 and the window averages of C38: the row made of a window that tiles an interval covers that interval.

*Status.* proved. Theorems: `Verif.Resample.up_down`, `Verif.Resample.average_cut`, `Verif.Resample.averages_interval`.

### C59 Removing flex-pol without combining windows puts data under their polarization

*Plan and model.* Loop of masked writes; writes to different windows do not meet, so the last write to a cell is the one of its window.

*Status.* proved. Theorems: `Verif.FlexPol.remove_spreads`.

*Note.* Covers also the early return for one window or one polarization. Windows without channels allowed.

### C60 Making an object flex-pol loses no unflagged data

*Plan and model.* The polarization chosen per window is characterised by the existence of data that are not flagged; then C59.

*Status.* proved. Theorems: `Verif.FlexPol.makeFlex_keeps`, `Verif.FlexPol.makeFlex_refuses`, `Verif.FlexPol.makeFlex_roundtrip`, `Verif.FlexPol.windowPol_spec`.

### C61 Combining windows while removing flex-pol keeps every visibility

*Plan and model.* If the checks pass, polarization changes slowest and all blocks list the same channels (number of changes equals number of polarizations minus one). Otherwise the order asked of reorder_freqs (model of C22) has this form. The permutation of channels is composed with the reshape.

*Status.* proved. Theorems: `Verif.FlexPol.remove_combines`, `Verif.FlexPol.remove_conflict`, `Verif.FlexPol.remove_unmatched`.

*Note.* Arithmetic is exact. eq_coeffs is not modelled.

### C62 Calibration uses the solutions of the right antennas, feeds, frequency and time

*Plan and model.* False in general: frequencies are compared after sorting but applied by position, times likewise (witnesses). Theorem for increasing frequencies and, with several solution times, rows of each pair at all times in order.

*Status.* partial. Theorems: `Verif.Calib.calibrate_cell_partial`, `Verif.Calib.channel_order_counterexample`, `Verif.Calib.time_order_counterexample`.

*Note.* Gain-type, not wide-band calibrations; absolute tolerances for times and frequencies (the defaults). The claim fails if the channels of the data and the calibration are in different orders, or if the rows of a baseline are not in the order of time and the calibration has several times: both are checked as sets but applied by position. Proved for increasing frequency axes spaced by more than two tolerances and, with several solution times and no time ranges, rows of each antenna pair at all times in order. Assumed: antenna names and numbers, polarizations and Jones terms without repetition, baseline numbers consistent with the antennas. `Calibrated` in Spec.lean is the claim. delay-type solutions and d_term_cal are not modelled.

### C63 Undoing a calibration gives the visibilities back

*Plan and model.* Each visibility is touched by exactly one pass in both calls, with the same gains; no assumption on the order of times or frequencies.

*Status.* proved. Theorems: `Verif.Calib.undo_restores`.

*Note.* Exact arithmetic. Needs gains different from zero wherever they are applied (automatic with prop_flags if 0 counts as close to zero). No assumption on the order of times or frequencies.

### C64 Calibration never removes flags and flags what has no solution

*Plan and model.* Same decomposition into passes as for C62 and C63.

*Status.* proved. Theorems: `Verif.Calib.calibrate_flags`, `Verif.Calib.calibrate_missing`, `Verif.Calib.calibrate_labels`.

*Note.* Gain-type calibrations. Which further flags prop_flags sets is part of C62.

### C65 A calibration that fails leaves the data as they were

*Plan and model.* False: a baseline with fewer times than the calibration raises after others were calibrated (witness). True if every baseline has all times in order and frequencies increase.

*Status.* partial. Theorems: `Verif.Calib.exception_unchanged_partial`, `Verif.Calib.half_calibrated_counterexample`.

*Note.* The claim fails: the witness has a baseline observed at one of two times. Under the assumptions of C62 all exceptions come before the first change.

### C66 Local east-north-up coordinates and rotated coordinates can be undone and mean what they say

*Plan and model.* Real arithmetic; orthogonality of the matrices; east and north as derivatives of the surface point by longitude and latitude.

*Status.* proved. Theorems: `Verif.Coord.to_enu_and_back`, `Verif.Coord.from_enu_and_back`, `Verif.Coord.enu_keeps_distance`, `Verif.Coord.up_is_up`, `Verif.Coord.east_is_east`, `Verif.Coord.north_is_north`, `Verif.Coord.rot_and_back`, `Verif.Coord.rot_longitude`, `Verif.Coord.earth_range`, `Verif.Coord.earth_range_refused`, `Verif.Coord.moon_range`.

*Note.* Real arithmetic, no rounding. Lunar ellipsoids are parameters with 0 < b <= a.

### C67 Latitude, longitude and altitude survive the conversion to Cartesian coordinates

*Plan and model.* Exact for points of the surface and for spheres; for the Earth up to 40 km the error is bounded (2e-11 rad, 0.1 mm) by real analysis of the one-step formula; longitude exact. False at the poles (altitude is minus the polar radius of curvature) and, as an exact statement, for every point off the surface and off the equator.

*Status.* partial. Theorems: `Verif.Coord.xyz_geodetic`, `Verif.Coord.surface_exact`, `Verif.Coord.sphere_exact`, `Verif.Coord.earth_roundtrip`, `Verif.Coord.earth_arrays`, `Verif.Coord.xy_restored`, `Verif.Coord.pole_counterexample`, `Verif.Coord.latitude_inexact_counterexample`.

*Note.* Exact on the surface and on spheres; for the Earth error bounds for |altitude| <= 40 km away from the exact poles. The exact statement is false at the poles and for points off the surface (witnesses).

### C68 Rotations about two axes are the two rotations one after the other

*Plan and model.* Memory returned by np.empty is a parameter of the model, so the theorem also shows that every entry is written.

*Status.* proved. Theorems: `Verif.Phasing.rotateOne_spec`, `Verif.Phasing.rotateTwo_spec`, `Verif.Phasing.twoMatrix_mulVec`.

*Note.* Real arithmetic. Shapes: one vector per row or one row (all uses in the code).

### C69 Baseline coordinates calculated from antenna positions are projections on the source

*Plan and model.* False in general: the neighbour comparison leaves out the position angle (witness). Theorem for rows in which equal neighbours have equal position angles; spec by scalar products with unit vectors.

*Status.* partial. Theorems: `Verif.Phasing.uvw_from_antennas_partial`, `Verif.Phasing.uvw_enu`, `Verif.Phasing.enu_is_difference`, `Verif.Phasing.proj_length`, `Verif.Phasing.proj_swap`, `Verif.Phasing.proj_w`, `Verif.Phasing.position_angle_counterexample`.

*Note.* The statement for source positions needs that consecutive rows with equal hour angle and declination have equal position angles; without it it is false (witness). The statement for local coordinates is proved without condition.

### C70 Baseline coordinates can be moved from source to source

*Plan and model.* True for calls whose arguments are coherent. False when local coordinates are named together with an old declination equal to the new one (not rotated), and a source that does not move is a TypeError if no position angle is given (witnesses).

*Status.* partial. Theorems: `Verif.Phasing.uvw_moved_partial`, `Verif.Phasing.there_and_back`, `Verif.Phasing.by_way_of`, `Verif.Phasing.length_kept`, `Verif.Phasing.both_ways_agree`, `Verif.Phasing.move_succeeds`, `Verif.Phasing.from_enu_counterexample`, `Verif.Phasing.no_position_angle_counterexample`.

*Note.* Proved for coherent arguments (old or new declination and position angle, if given with from_enu or to_enu, are those of the zenith); false otherwise (witnesses).

### C71 Phasing never changes what the correlator measured

*Plan and model.* Invariant: visibility = signal * wave(path). Induction over histories. False when a source is looked up by name and is of another kind than cat_type says (witness), and when the name of the source belongs to rows that are not selected (witness).

*Status.* partial. Theorems: `Verif.Phase.phase_keeps_signal_partial`, `Verif.Phase.steps_keep`, `Verif.Phase.steps_same_path`, `Verif.Phase.steps_agree`, `Verif.Phase.steps_magnitude`, `Verif.Phase.unproject_keeps_signal_partial`, `Verif.Phase.setUvws_keeps_signal_partial`, `Verif.Phase.updateAnts_keeps_signal_partial`, `Verif.Phase.phase_kind_turned`, `Verif.Phase.phase_kind_counterexample`, `Verif.Phase.phase_clash_counterexample`.

*Note.* The statement is proved for all histories of calls within these conditions: a source looked up by name is of the kind that cat_type says; a call with a selection does not reuse the name of another source; rows that unproject_phase leaves out are unprojected already; coordinates are set from antenna positions only while rows are all of one kind. Each condition is needed: see the witnesses here and under C73 and C74. Exact arithmetic.

### C72 Phasing points the selected rows at the source and leaves the others alone

*Plan and model.* The sky (apparent positions, position angles) is an arbitrary function. False: with the name of an entry that other rows use, their entry is overwritten (witness); a partial selection without antenna positions always fails because old positions are not selected (theorem for all objects).

*Status.* partial. Theorems: `Verif.Phase.phase_selected_rows_partial`, `Verif.Phase.phase_from_antennas_partial`, `Verif.Phase.phase_moves_baseline`, `Verif.Phase.phase_other_rows`, `Verif.Phase.phase_other_sources_partial`, `Verif.Phase.phase_good`, `Verif.Phase.phase_succeeds`, `Verif.Phase.phase_selection_counterexample`, `Verif.Phase.phase_clash_counterexample`.

*Note.* Missing: positions of ephemeris sources; the coordinates from antenna positions need that rows seen at the same hour angle and declination have the same position angle (see C69); entries of rows not selected are kept only if the name is new or is that of the very source (witness otherwise).

### C73 Unprojecting gives drift-scan data and undoes phasing

*Plan and model.* False for rows that are not selected: their coordinates are overwritten as well, also when the method warns that it does nothing (witness). The rest is proved.

*Status.* partial. Theorems: `Verif.Phase.unproject_kind`, `Verif.Phase.unproject_sources`, `Verif.Phase.unproject_overhead`, `Verif.Phase.unproject_good`, `Verif.Phase.unproject_row_signal`, `Verif.Phase.unproject_keeps_signal_partial`, `Verif.Phase.unproject_from_antennas`, `Verif.Phase.unproject_moves_baseline`, `Verif.Phase.phase_unproject`, `Verif.Phase.unproject_succeeds`, `Verif.Phase.unproject_mask_counterexample`.

*Note.* All parts about selected rows are proved. Rows that are not selected keep entry and position, but their coordinates are overwritten (witness).

### C74 Coordinates follow the antenna positions

*Plan and model.* False: with delta_antpos the visibilities of projected rows are not updated and those of unprojected ones are (selection inverted, witness); for objects with rows of both kinds the unprojected ones are turned (witness).

*Status.* partial. Theorems: `Verif.Phase.setUvws_baselines_partial`, `Verif.Phase.setUvws_good`, `Verif.Phase.setUvws_keeps_signal_partial`, `Verif.Phase.setUvws_mixed_counterexample`, `Verif.Phase.setUvws_mixed_witness_counterexample`, `Verif.Phase.updateAnts_positions`, `Verif.Phase.updateAnts_baselines_partial`, `Verif.Phase.updateAnts_keeps_signal_partial`, `Verif.Phase.updateAnts_delta_counterexample`, `Verif.Phase.updateAnts_witness_counterexample`, `Verif.Phase.setUvws_succeeds_partial`, `Verif.Phase.updateAnts_succeeds_partial`.

*Note.* Coordinates need the condition on position angles of C69. The visibilities follow only without delta_antpos and when rows are all of one kind (witnesses otherwise).

### C75 The apparent position of each row is that of the source at the time of this row

*Plan and model.* What astropy returns for one position and time is an arbitrary function; ERFA's ae2hd is written out and proved to give the direction. False for rows with equal times but different LSTs: the LST of the first such row is used (witness). Composed with the model of phase.

*Status.* partial. Theorems: `Verif.Sky.app_row_partial`, `Verif.Sky.app_succeeds`, `Verif.Sky.driftscan_fixed`, `Verif.Sky.driftscan_zenith`, `Verif.Sky.phase_site_partial`, `Verif.Sky.app_lst_counterexample`.

*Note.* Needs rows with the same time to have the same LST; false otherwise (witness).

### C76 The position angle of each row is that of its own position and time

*Plan and model.* False within the offset of the south pole (an error, for every frame), within the offset of the north pole (always zero), and for positions that do not go with times, as four sources in a rectangle (the fourth gets zero): witnesses. Proved for rows away from the poles if rows with the same time have the same position, which is how phase calls it.

*Status.* partial. Theorems: `Verif.Sky.frame_angle_partial`, `Verif.Sky.frame_rows`, `Verif.Sky.frame_angle_aligned`, `Verif.Sky.site_angle`, `Verif.Sky.frame_south_counterexample`, `Verif.Sky.frame_north_counterexample`, `Verif.Sky.frame_rectangle_counterexample`.

*Note.* Proved away from the poles if rows with the same time have the same position; false near both poles and for other combinations of positions (witnesses).

### C77 Interpolated ephemerides go through their points and stay between them

*Plan and model.* scipy's interp1d with kind nearest and linear is modelled, the cubic spline for more than three points is arbitrary. The last part is false: a source passing through right ascension zero is put on the opposite side of the sky half-way, however slowly it moves (witness).

*Status.* partial. Theorems: `Verif.Sky.interp_exact`, `Verif.Sky.interp_order`, `Verif.Sky.interp_between`, `Verif.Sky.interp_linear`, `Verif.Sky.interp_total`, `Verif.Sky.interp_wrap_counterexample`.

*Note.* The part about full turns is false (witness). Cubic splines, used with more than three points, are an arbitrary function.

### C78 Polar and Cartesian coordinates, and the old baseline calculation, can be undone

*Plan and model.* Real numbers. The longitude is not recovered at the poles, where it has no meaning.

*Status.* proved. Theorems: `Verif.Sky.polar2_dir`, `Verif.Sky.cart3_polar2`, `Verif.Sky.polar2_cart3`, `Verif.Sky.cart3_range`, `Verif.Sky.undo_old`, `Verif.Sky.oldUvw_components`.

### C79 Equal contents compare equal

*Plan and model.* False for empty arrays and lists (an error), for dictionaries with a NaN (not equal) and for dictionaries with an array and a list of strings (an error): witnesses. Proved for all others.

*Status.* partial. Theorems: `Verif.Eq.param_refl_partial`, `Verif.Eq.object_refl_partial`, `Verif.Eq.empty_refl_counterexample`, `Verif.Eq.dict_nan_counterexample`, `Verif.Eq.dict_strings_counterexample`.

*Note.* False for empty arrays and lists, dictionaries holding NaN, and dictionaries holding both an array and a list of strings (witnesses); proved for all other values and for objects of any nesting.

### C80 What compares equal has the same shape and agrees within tolerances

*Plan and model.* False for lists: they are broadcast, so a number equals lists of any length (witness), and for dictionaries with keys that differ only in case (witness: of {A:1, a:2} and {A:5, a:2} only the last entries are compared). Proved otherwise.

*Status.* partial. Theorems: `Verif.Eq.array_eq_iff`, `Verif.Eq.number_eq_iff`, `Verif.Eq.string_eq`, `Verif.Eq.dict_agree_partial`, `Verif.Eq.object_eq_iff`, `Verif.Eq.object_arrays`, `Verif.Eq.allowed_irrelevant`, `Verif.Eq.allowed_again`, `Verif.Eq.list_shape_counterexample`, `Verif.Eq.strings_word_counterexample`, `Verif.Eq.dict_case_counterexample`, `Verif.Eq.dict_tols_counterexample`, `Verif.Eq.object_allowed_counterexample`, `Verif.Eq.class_differs`, `Verif.Eq.unset_no_raise`, `Verif.Eq.unset_equal`, `Verif.Eq.list_eq_iff`, `Verif.Eq.other_eq_iff`, `Verif.Eq.dict_raises`, `Verif.Eq.dict_array`.

*Note.* Arrays, numbers, strings and objects are proved as stated; lists are broadcast and keys of dictionaries that differ in case hide each other (witnesses). Parameters allowed to differ do not matter unless comparing them raises (witness).

### C81 Comparing is symmetric, and equal values drift apart by no more than the tolerance per step

*Plan and model.* Symmetry is false with a relative tolerance (the default), for a list of strings and a string, for dictionaries in dictionaries and for objects of subclasses (witnesses). Proved for a relative tolerance of zero and values of the same sort. Equality is not transitive (witness); the drift is bounded for chains of any length.

*Status.* partial. Theorems: `Verif.Eq.param_symm_partial`, `Verif.Eq.object_symm_partial`, `Verif.Eq.chain_drift`, `Verif.Eq.array_symm_counterexample`, `Verif.Eq.array_trans_counterexample`, `Verif.Eq.string_trans_counterexample`, `Verif.Eq.strings_word_counterexample`, `Verif.Eq.dict_nested_counterexample`, `Verif.Eq.object_symm_counterexample`.

*Note.* Symmetry fails with the default relative tolerance, for some pairs of types and for subclasses (witnesses); proved for a relative tolerance of zero and values of the same sort. The bound on the drift is proved for chains of any length.

### C82 A check passes exactly if all parameters are as declared

*Plan and model.* Acceptable ranges are about the mean of the magnitudes, not about every value as the documentation says (witness). Quantities, record arrays, sky coordinates and the additional checks of subclasses are not part of the model.

*Status.* partial. Theorems: `Verif.Eq.check_iff`, `Verif.Eq.expectedShape_iff`, `Verif.Eq.check_range_counterexample`.

*Note.* The equivalence is proved with ranges understood as ranges of the mean magnitude; that single values may lie outside is shown by a witness.

### C83 Reordering a calibration object moves labels and solutions together

*Plan and model.* Induction over the calls with one permutation per axis as invariant. Sorting is any function that returns a permutation of the positions sorting the keys.

*Status.* proved. Theorems: `Verif.CalSort.reorder_keeps_solutions`.

### C84 A calibration object comes out in the order asked for

*Plan and model.* An object with one window and one channel accepts any arguments of reorder_freqs (a warning only) and is excluded.

*Status.* proved. Theorems: `Verif.CalSort.reorder_antennas_order`, `Verif.CalSort.reorder_jones_order`, `Verif.CalSort.reorder_times_order`, `Verif.CalSort.reorder_windows_order`, `Verif.CalSort.reorder_channels_order`, `Verif.CalSort.reorder_antennas_ok_iff`, `Verif.CalSort.reorder_jones_ok_iff`, `Verif.CalSort.reorder_times_ok_iff`.

### C85 Gains made from delays have the right phase

*Plan and model.* Complex numbers, no rounding. A call that is refused changes nothing.

*Status.* proved. Theorems: `Verif.CalSort.convert_to_gain_values`, `Verif.CalSort.convert_to_gain_refused`, `Verif.CalSort.phaseOf_facts`, `Verif.CalSort.phaseOf_quarter`.

### C86 Going to one Jones component per window keeps every solution

*Plan and model.* False if total_quality_array is set: an exception is raised when the object has been changed already (witness). Proved for objects without it.

*Status.* partial. Theorems: `Verif.FlexJones.convert_keeps_partial`, `Verif.FlexJones.convert_refused`, `Verif.FlexJones.convert_total_counterexample`.

*Note.* False if total_quality_array is set (witness); proved for all other objects.

### C87 Undoing one Jones component per window keeps every solution

*Plan and model.* False if total_quality_array is set (an exception leaves an inconsistent object, witness) and if windows have different numbers of channels (the way back raises an exception, witness). Frequencies are compared exactly in the model.

*Status.* partial. Theorems: `Verif.FlexJones.remove_keeps_partial`, `Verif.FlexJones.remove_accepts`, `Verif.FlexJones.flex_round_trip_partial`, `Verif.FlexJones.remove_total_counterexample`, `Verif.FlexJones.round_trip_counterexample`.

*Note.* False if total_quality_array is set and, for the way back, if windows have different numbers of channels (witnesses); proved otherwise, with exact comparison of frequencies.

### C88 Reducing to one Jones component per window loses no data that is not flagged

*Plan and model.* Proved for objects without total_quality_array, with which it raises an exception half-way.

*Status.* partial. Theorems: `Verif.FlexJones.make_keeps_partial`, `Verif.FlexJones.make_refuses`, `Verif.FlexJones.make_total_counterexample`.

*Note.* Missing: objects with total_quality_array (false: every such object with several components that would be converted without it ends with an exception, changed).

### C89 Overlapping time or frequency ranges are recognised

*Plan and model.* With a range of length zero the answer depends on how the sort treats equal starts (counterexample); then only 'no overlap found means no overlap' is proved.

*Status.* partial. Theorems: `Verif.CalAdd.range_overlap_refused`, `Verif.CalAdd.range_overlap_false`, `Verif.CalAdd.range_overlap_iff`, `Verif.CalAdd.range_overlap_counterexample`.

*Note.* Exact for ranges that are not empty.

### C90 Adding calibration objects keeps every solution under its labels

*Plan and model.* False for the second object if along an axis labels that only it has come before labels both have: its solutions are exchanged (counterexample). Proved for the first object, and for the second if labels both have come first. Of a time that both have, LST and integration time of the second object are dropped without a check. The total quality is dropped if antennas are added.

*Status.* partial. Theorems: `Verif.CalAdd.cal_add_label_sets`, `Verif.CalAdd.cal_add_keeps_this`, `Verif.CalAdd.cal_add_keeps_other_partial`, `Verif.CalAdd.cal_add_keeps_other_counterexample`, `Verif.CalAdd.cal_add_pads`, `Verif.CalAdd.cal_add_no_quality`, `Verif.CalAdd.cal_add_rows`, `Verif.CalAdd.cal_add_widths`, `Verif.CalAdd.cal_add_sorted`, `Verif.CalAdd.cal_add_total_kept`, `Verif.CalAdd.cal_add_total_partial`.

*Note.* For the second object only if along each axis the labels both have come before those only it has.

### C91 Which calibration objects can be combined

*Plan and model.* Two consequences, with witnesses: objects with a common time range cannot be combined along any other axis; and if one has a total quality, but neither a quality per antenna, times cannot be added (an exception).

*Status.* proved. Theorems: `Verif.CalAdd.cal_add_outcome`, `Verif.CalAdd.cal_add_shared_range_refused`, `Verif.CalAdd.cal_add_shared_range_witness`, `Verif.CalAdd.cal_add_total_witness`.

### C92 Adding calibration objects keeps the Jones components of windows

*Plan and model.* False: components are not put in the order of the windows, so that two windows can exchange their components; and a window that both objects have with different components silently takes that of the first (counterexamples). Proved if the second object has no new channels, or all windows ascend and those of the second come last.

*Status.* partial. Theorems: `Verif.CalAdd.cal_add_wide_jones_partial`, `Verif.CalAdd.cal_add_jones_partial`, `Verif.CalAdd.cal_add_wide_jones_counterexample`, `Verif.CalAdd.cal_add_jones_counterexample`, `Verif.CalAdd.cal_add_jones_relabelled_counterexample`.

*Note.* If nothing has to be sorted.

### C93 Selecting from a beam keeps values under their labels

*Plan and model.* False for polarizations: the labels are put in the order of the request, the values stay in the order of the object, so a request in another order exchanges polarizations. select_pols_swapped proves this for every such request. Proved for polarizations requested in the order of the object.

*Status.* partial. Theorems: `Verif.Beam.select_keeps_partial`, `Verif.Beam.select_pols_swapped`, `Verif.Beam.select_pols_counterexample`.

*Note.* Proved for polarizations requested in the order of the object; every other request exchanges polarizations.

### C94 Which selections from a beam are refused

*Plan and model.* The last sentence is false in place: criteria are applied one after the other and an exception comes when the object has been changed (two counterexamples). The condition is proved as an equivalence.

*Status.* partial. Theorems: `Verif.Beam.select_accepted_iff`, `Verif.Beam.select_refused_counterexample`, `Verif.Beam.select_basis_counterexample`.

*Note.* The condition is proved; that a refused selection in place changes nothing is false.

### C95 Adding beams keeps values under their labels

*Plan and model.* False if the labels of the second object are not in the order they have in the sum (then a frequency has values of another one; proved for every such case), and of a frequency that both have the passband, of a pixel that both have the basis vectors of the second silently replace those of the first, so the beam (value times passband) changes (counterexample). Proved if the labels of the second object are in order; ascending labels in both objects are enough.

*Status.* partial. Theorems: `Verif.Beam.add_labels`, `Verif.Beam.add_keeps_partial`, `Verif.Beam.add_basis_partial`, `Verif.Beam.add_coupling_partial`, `Verif.Beam.add_inOrder`, `Verif.Beam.add_freqs_swapped`, `Verif.Beam.add_band_lost`, `Verif.Beam.add_freqs_counterexample`, `Verif.Beam.add_band_counterexample`.

*Note.* Proved if the labels of the second object are in the order of the sum; false otherwise and for shared passbands and basis vectors.

### C96 Which beams can be added

*Plan and model.* The last sentence is false for +=: arrays that only one object has are dropped before the overlap is looked at (proved for every such case), and the check comes when the object has been changed (counterexamples).

*Status.* partial. Theorems: `Verif.Beam.add_accepted_iff`, `Verif.Beam.add_refused_drops`, `Verif.Beam.add_refused_counterexample`, `Verif.Beam.add_basis_counterexample`.

*Note.* The condition is proved; that a refused addition changes nothing is false.

### C97 A power beam is the inner product of the fields of its feeds

*Plan and model.* Proved. With keep_basis_vector the value is the product of coefficients along one axis. Rounding is left out, so the correction of small imaginary parts is modelled and proved to do nothing.

*Status.* proved. Theorems: `Verif.Beam.power_is_inner_product`, `Verif.Beam.power_kept_axes`, `Verif.Beam.power_auto_nonneg`, `Verif.Beam.power_conj`, `Verif.Beam.power_cauchy`, `Verif.Beam.power_basis_free`, `Verif.Beam.power_sum_of_axes`, `Verif.Beam.power_scaled`.

*Note.* In exact arithmetic.

### C98 Which beams can be converted to power, and what a refused conversion leaves

*Plan and model.* The conditions are proved as equivalences. The last sentence is false: a beam with three axes is refused when it already says it is a power beam with one axis (proved for every such beam), one with one feed when it already has the labels of pseudo-Stokes polarizations (likewise), and a beam with peak 1 becomes one with a value of 2 that still says its peak is 1 (counterexample). power_scaled gives the factor by which the order of normalising and converting matters.

*Status.* partial. Theorems: `Verif.Beam.power_accepted_iff`, `Verif.Beam.power_refused_unchanged`, `Verif.Beam.power_three_vectors`, `Verif.Beam.pstokes_accepted_iff`, `Verif.Beam.pstokes_one_feed`, `Verif.Beam.power_peak_counterexample`.

*Note.* The conditions are proved; that a refused conversion changes nothing and that the normalization stays right are false.

### C99 Normalising a beam to its peak keeps the value times the bandpass

*Plan and model.* Proved. A channel of zeros, as addition makes them where neither beam has values, has no numbers left afterwards (counterexample without the hypothesis).

*Status.* proved. Theorems: `Verif.Beam.peak_normalize_keeps`, `Verif.Beam.peak_normalize_twice`, `Verif.Beam.peak_normalize_refused_iff`, `Verif.Beam.peak_normalize_zero_counterexample`.

*Note.* For channels that are not all zero.

### C100 Pseudo-Stokes beams are the diagonal of the Mueller matrix

*Plan and model.* The closed forms and bounds are proved. Partial since two parts are false: only the modulus of the response is given, so a beam with its feeds exchanged has the same pQ (counterexample), and basis vectors are not used, so pI is the mean of the powers only if they are perpendicular and of length 1 (proved with that hypothesis, counterexample without).

*Status.* partial. Theorems: `Verif.Beam.pstokes_values`, `Verif.Beam.pstokes_bounds`, `Verif.Beam.pstokes_intensity_partial`, `Verif.Beam.pstokes_sign_counterexample`, `Verif.Beam.pstokes_basis_counterexample`.

*Note.* Closed forms and bounds proved; signs are lost and basis vectors ignored.

### C101 Interpolating a beam in frequency

*Plan and model.* Proved, with scipy's interp1d a parameter that is exact at its nodes. Partial since the last sentence is false: without freq_array only the bandpass of the first channel is returned (counterexample). Whether a frequency is interpolated or taken from a channel depends on the other frequencies of the request (counterexample to independence).

*Status.* partial. Theorems: `Verif.Interp.freq_accepted_iff`, `Verif.Interp.freq_values`, `Verif.Interp.freq_own`, `Verif.Interp.band_values`, `Verif.Interp.band_first_only`, `Verif.Interp.band_counterexample`, `Verif.Interp.nearest_depends_counterexample`.

*Note.* Values at channels, the closest channel and the accepted requests are proved. Missing: without freq_array only the bandpass of the first channel is returned (band_first_only, counterexample).

### C102 Interpolating a beam at its own points gives its own values

*Plan and model.* Proved, with scipy's RectBivariateSpline a parameter that is exact at its nodes. Partial since two parts are false: basis vectors are only refused if an off-diagonal component is positive, so vectors that point backwards are accepted and replaced by those of the coordinates; with only one coordinate the request is answered as if there were none (counterexamples).

*Status.* partial. Theorems: `Verif.Interp.sky_at_grid`, `Verif.Interp.sky_own`, `Verif.Interp.polInds_spec`, `Verif.Interp.grid_point`, `Verif.Interp.distance_two_ways`, `Verif.Interp.outside_iff`, `Verif.Interp.basis_accepted_iff`, `Verif.Interp.basis_kept`, `Verif.Interp.basis_counterexample`, `Verif.Interp.one_coordinate_counterexample`.

*Note.* Values at points of the grid and the domain check are proved. Missing: basis vectors that are not those of the coordinates and a single coordinate are not refused (counterexamples).

### C103 Continuation of a beam around the circle

*Plan and model.* Proved if the azimuths stop one step before a turn. Partial since it is false if they contain both ends: these beams are taken to go around as well and the continuation is off by one step (proved for all such beams).

*Status.* partial. Theorems: `Verif.Interp.wrap_periodic`, `Verif.Interp.wrap_both_ends`, `Verif.Interp.phiUse_get`, `Verif.Interp.srcUse_get`.

*Note.* Proved for azimuths that stop one step before the turn. Missing: with both ends the continuation is off by one step (wrap_both_ends).

### C104 Saved interpolation functions change nothing

*Plan and model.* Proved for the case that the saved functions asked for are those the request would compute (so for repeated requests). Partial since it is false otherwise: functions are saved under frequency, number of the polarization and axis only, and used after changes of the kind of frequency interpolation, of the options of the spline, of the data and of the order of polarizations (proved in general, counterexamples).

*Status.* partial. Theorems: `Verif.Interp.reuse_same_partial`, `Verif.Interp.reuse_twice`, `Verif.Interp.jobs_consistent`, `Verif.Interp.reuse_stale`, `Verif.Interp.reuse_kind_counterexample`, `Verif.Interp.reuse_opts_counterexample`, `Verif.Interp.reuse_data_counterexample`, `Verif.Interp.reuse_order_counterexample`.

*Note.* Proved for saved functions that the request would compute. Missing: others are used as well (reuse_stale, counterexamples).

### C105 New beams from interpolation keep their labels

*Plan and model.* Proved without a choice of polarizations and for all of them in the order of the beam. Partial since it is false otherwise: the polarizations of the new beam are always those of the old one, so with the same number in another order the values are exchanged but not the labels (proved in general, counterexample); with frequencies only the choice is ignored.

*Status.* partial. Theorems: `Verif.Interp.new_labels`, `Verif.Interp.new_value`, `Verif.Interp.new_object_partial`, `Verif.Interp.new_freq_only`, `Verif.Interp.new_pols_swapped`, `Verif.Interp.new_object_counterexample`.

*Note.* Proved without a choice of polarizations. Missing: with polarizations in another order values are exchanged and labels are not (new_pols_swapped, counterexample).

### C106 Interpolation in healpix maps and areas of beams

*Plan and model.* Proved, with astropy_healpix a parameter. Partial since two parts are false: of the maps of different pixels exactly those in order and those in reverse order are accepted, and the latter are read with each pixel exchanged with the opposite one (counterexample, also for maps with a pixel twice); for complex values the area of the square is that of the square without the modulus (counterexample).

*Status.* partial. Theorems: `Verif.Interp.order_two_ways`, `Verif.Interp.healpix_value_partial`, `Verif.Interp.healpix_value_reversed`, `Verif.Interp.healpix_between`, `Verif.Interp.area_accepted_iff`, `Verif.Interp.area_value`, `Verif.Interp.area_bounds`, `Verif.Interp.healpix_order_counterexample`, `Verif.Interp.healpix_twice_counterexample`, `Verif.Interp.sq_area_complex_counterexample`.

*Note.* Proved for maps in order. Missing: maps in reverse order are accepted and complex values squared without the modulus (counterexamples).

### C107 Visibilities survive a uvfits file

*Plan and model.* Proved. With negative numbers of samples flags come back inverted (proved in general and with an example), which is why the claim excludes them.

*Status.* proved. Theorems: `Verif.Fits.values_kept`, `Verif.Fits.pols_kept`, `Verif.Fits.flags_inverted`, `Verif.Fits.negative_samples_counterexample`.

*Note.* Negative numbers of samples are excluded by the claim; what happens with them is proved too.

### C108 Frequencies survive a uvfits file

*Plan and model.* Proved for windows listed in the order of their channels: which frequency each channel gets is proved in general. Partial since three parts are false: if the list of windows is in another order than the channels, all checks pass and channels come back with the frequencies of another window (proved in general, counterexample); the widths of one window with descending frequencies come back negative and the object then cannot be written again (counterexample); windows are numbered anew from zero (counterexample).

*Status.* partial. Theorems: `Verif.Fits.freqs_kept_partial`, `Verif.Fits.channel_kept`, `Verif.Fits.freqs_read`, `Verif.Fits.step_near`, `Verif.Fits.windows_counterexample`, `Verif.Fits.widths_counterexample`, `Verif.Fits.window_numbers_counterexample`.

*Note.* False if the list of windows is in another order than the channels, for widths of a descending window, and for window numbers.

### C109 Reading a part of a uvfits file is selecting from the whole

*Plan and model.* Proved for files with one window, and for files with several windows if all channels are chosen. Partial since it is false for other choices of channels from files with several windows: with at least as many channels as a window has, and all rows and polarizations, the choice is ignored without a warning and all of the file is read (proved in general, counterexample); everything else is refused with an assertion, an index error or an error of reshaping (proved for all such choices).

*Status.* partial. Theorems: `Verif.Fits.partRead_partial`, `Verif.Fits.partRead_ignored`, `Verif.Fits.partRead_refused`, `Verif.Fits.part_counterexample`.

*Note.* False for choices of channels from files with several windows.

### C110 Times, antennas and sources survive a uvfits file

*Plan and model.* Proved for numbers that are kept by the precision (up to 2^24 in single precision, proved for a definition of that rounding), names up to eight letters for antennas and twenty for sources, and catalogs in which no two entries come out the same. Partial since it is false otherwise: a baseline of antennas 16777216 and 16777217 comes back as one antenna with itself; antennas get the same name; proper motions, distances and velocities are not kept, and if two entries differ in these only then the file is written but cannot be read (proved in general, counterexamples).

*Status.* partial. Theorems: `Verif.Fits.times_kept`, `Verif.Fits.antennas_kept`, `Verif.Fits.sources_kept_partial`, `Verif.Fits.sources_refused`, `Verif.Fits.fileFrame_spec`, `Verif.Fits.f32_exact`, `Verif.Fits.antennas_counterexample`, `Verif.Fits.names_counterexample`, `Verif.Fits.sources_counterexample`, `Verif.Fits.motion_counterexample`.

*Note.* False for large numbers in single precision, long names, and entries of the catalog that differ in what is not written.

### C111 Extra keywords survive a uvfits file

*Plan and model.* Proved for names that are short and in capitals, that no other name is cut to and that contain no name of the format, and that nothing else comes back. Partial since it is false otherwise: names that contain one of the format, such as OBJECTID, are not read; names of the format, such as BUNIT, replace its value without a warning; of names that are cut to the same only the last value is kept (proved in general, counterexamples).

*Status.* partial. Theorems: `Verif.Fits.keyword_kept_partial`, `Verif.Fits.keyword_from`, `Verif.Fits.keyword_lost`, `Verif.Fits.keyword_replaces`, `Verif.Fits.keyword_collide`, `Verif.Fits.keywords_counterexample`.

*Note.* False for names that contain a name of the format, that are one, or that are cut to the same.

### C112 Which objects can be written as uvfits

*Plan and model.* Proved.

*Status.* proved. Theorems: `Verif.Fits.write_iff`.

### C113 Gains, delays and labels survive a calfits file

*Plan and model.* Proved for values and Jones components in general, and for antennas with numbers that are not negative and names up to eight letters. Partial since it is false otherwise: the number of the window is set to zero, Jones components that depend on the window are dropped, and two antennas can come back with one name (counterexamples).

*Status.* partial. Theorems: `Verif.CalFits.gains_kept`, `Verif.CalFits.delays_kept`, `Verif.CalFits.labels_kept_partial`, `Verif.CalFits.flex_counterexample`, `Verif.CalFits.names_counterexample`.

*Note.* False for window numbers, flexible Jones components and long antenna names.

### C114 Frequencies and times survive a calfits file

*Plan and model.* Proved for frequencies that are not all falling and for times, with the number of the step as a factor of the tolerances, and for a range of times. Partial since it is false otherwise: falling frequencies that are apart by their widths come back rising, each as far above the first as it was below (proved for all such objects, counterexample); evenly spaced times that differ from the integration time by up to the tolerance of np.isclose come back with errors that exceed any multiple of the tolerance of times (proved for every multiple); gains of a window as a whole come back as those of a channel of one hertz at its lower end (proved in general, counterexample).

*Status.* partial. Theorems: `Verif.CalFits.freqs_kept_partial`, `Verif.CalFits.freqs_mirrored`, `Verif.CalFits.times_kept_partial`, `Verif.CalFits.range_kept`, `Verif.CalFits.wide_gains`, `Verif.CalFits.falling_counterexample`, `Verif.CalFits.wide_counterexample`, `Verif.CalFits.both_counterexample`, `Verif.CalFits.drift_counterexample`.

*Note.* False for falling frequencies, wide-band gains and times close to but not at the integration time.

### C115 Which objects can be written as calfits

*Plan and model.* Proved.

*Status.* proved. Theorems: `Verif.CalFits.write_iff`.

### C116 Extra keywords survive a calfits file

*Plan and model.* Proved for names that are short, in capitals, not taken and that no other name is cut to, and that from files of gains nothing else comes back. Partial since it is false otherwise: from every file of delays the width of channels comes back as an extra keyword (proved in general); names that are cut to one of the format replace its value and do not come back (counterexample).

*Status.* partial. Theorems: `Verif.CalFits.keyword_kept_partial`, `Verif.CalFits.keyword_from_gains`, `Verif.CalFits.keyword_from_delays`, `Verif.CalFits.format_kept_partial`, `Verif.CalFits.delays_width_counterexample`, `Verif.CalFits.observer_counterexample`.

*Note.* False for delays and for names that are cut to one of the format.

### C117 Beams survive a beamfits file

*Plan and model.* Proved for beams of fields, for beams of power with complex values, and for those of one polarization, with the number of the step as a factor of the tolerances. Partial since it is false for all others: beams of power with real values and more than one polarization, as efield_to_power with only the auto polarizations makes them, are written to files that cannot be read (proved for all such beams).

*Status.* partial. Theorems: `Verif.BeamFits.beam_kept_partial`, `Verif.BeamFits.real_power_counterexample`.

*Note.* False for real power beams with more than one polarization: the file is written and cannot be read.

### C118 Ranges of a beamfits file select what is in them

*Plan and model.* Proved for rising axes, and that values and columns are those of the whole beam under the same labels for all axes. Partial since it is false otherwise: on every falling axis any range with a value in it is ignored and the whole axis is read (proved in general); a range between two values gives a beam with none (counterexample; if the beam is then checked the empty arrays make the check fail).

*Status.* partial. Theorems: `Verif.BeamFits.ranges_partial`, `Verif.BeamFits.slice_rising`, `Verif.BeamFits.falling_counterexample`, `Verif.BeamFits.empty_counterexample`.

*Note.* False for falling axes (the range is ignored) and for ranges between two values (empty beam).

### C119 Setting data by key changes that key's records only

*Plan and model.* Proved. A key by a bare polarization number or name, by a pair, and by a pair with a polarization; the numpy writing through a pair of index objects is modelled for every mixture of slices and lists.

*Status.* proved. Theorems: `Verif.SetData.set_data_exact`, `Verif.SetData.set_pol_iff`.

### C120 Queries after reading a file into an object in use

*Plan and model.* Partial since it is false: a query that succeeded before reading is answered with the same positions after it, whatever the file holds (proved in general; counterexample where get_data gives the values of another pair). Proved for objects not asked before, and that assigning an antenna array to itself after reading repairs it.

*Status.* partial. Theorems: `Verif.Cache.read_fresh_partial`, `Verif.Cache.read_then_assign`, `Verif.Cache.read_stale`, `Verif.Cache.read_counterexample`.

*Note.* False after earlier queries: the caches are not emptied by reading.

### C121 A new object has the given combinations of times and pairs with the labels of their times

*Plan and model.* The combinations and their places are proved for all arguments; the labels if times rise or baselines are the faster axis. Partial since it is false otherwise: with times as the faster axis the times are sorted and their labels are not; proved that sidereal times are then right exactly if the times were given in rising order.

*Status.* partial. Theorems: `Verif.NewData.outer_rows`, `Verif.NewData.outer_labels_partial`, `Verif.NewData.faster_lst_iff`, `Verif.NewData.plain_rows`, `Verif.NewData.faster_counterexample`.

*Note.* False with times as the faster axis and times not in order.

### C122 Integration times and widths of channels that are left out

*Plan and model.* Proved for times that rise or are the faster axis, and when times can be left out at all; widths of channels for all frequencies. Partial since it is false otherwise: counterexample for times not in order; for falling frequencies all widths are negative (proved in general).

*Status.* partial. Theorems: `Verif.NewData.left_out_iff`, `Verif.NewData.outer_inferred_partial`, `Verif.NewData.widths`, `Verif.NewData.widths_accepted`, `Verif.NewData.falling_negative`, `Verif.NewData.unsorted_gaps_counterexample`.

*Note.* False for times not in order and falling frequencies.

### C123 The order of rows that a new object reports is the actual order

*Plan and model.* Proved if times are the faster axis or times and antenna numbers rise; partial since it is false otherwise (counterexamples for times and for antennas).

*Status.* partial. Theorems: `Verif.NewData.order_reported`, `Verif.NewData.order_right_partial`, `Verif.NewData.order_counterexample`.

*Note.* False for times or antennas not in order.

### C124 Polarizations given to a new object by name keep their names

*Plan and model.* Proved if the orientation given as an argument is that of the telescope. Partial since the orientation of a telescope object is not used: names are refused or mean the other polarization (counterexample).

*Status.* partial. Theorems: `Verif.NewData.names_kept_partial`, `Verif.NewData.names_counterexample`.

*Note.* False if the argument differs from the orientation of the telescope.

### C125 In a string of antennas the last thing said about a pair counts

*Plan and model.* Proved for all strings of parts, where the parts are those the code recognizes: what each part says of a pair is a separate definition. Partial since two kinds of parts do not say what they seem to: `all` as the last part says nothing, and of a list in parentheses by itself only the first antenna counts, without its minus sign (counterexamples). The cutting of the text by a regular expression is not modelled.

*Status.* partial. Theorems: `Verif.AntStr.last_wins`, `Verif.AntStr.all_last_counterexample`, `Verif.AntStr.list_alone_counterexample`, `Verif.AntStr.both_orders_counterexample`.

*Note.* `all` as the last part and lists in parentheses by themselves do not say what they seem to.

### C126 A selection by a string keeps the pairs that the string asks for

*Plan and model.* Proved which pairs each of these strings asks for, and that they are kept if there is at least one; exactly which strings without feeds are refused. Partial since it is false if there is none: a string that asks for no pair of the data keeps the whole object (proved in general, counterexamples: an antenna that is not there, an antenna asked for and excluded).

*Status.* partial. Theorems: `Verif.AntStr.asked`, `Verif.AntStr.excluded`, `Verif.AntStr.pair_excluded`, `Verif.AntStr.minus_all`, `Verif.AntStr.kept`, `Verif.AntStr.refused_iff`, `Verif.AntStr.nothing_wanted_counterexample`.

*Note.* If no pair of the data is asked for, the whole object is kept.

### C127 Feeds named in a string choose polarizations

*Plan and model.* Proved for all strings of parts. Partial since for objects with a known orientation no linear polarization is ever chosen, whatever the string (proved in general), so that all are kept; excluding with feeds excludes nothing on objects with more polarizations and may be an error on objects with one; polarizations of one pair are chosen for all pairs (counterexamples).

*Status.* partial. Theorems: `Verif.AntStr.pols_last_wins`, `Verif.AntStr.two_feeds`, `Verif.AntStr.oriented_never`, `Verif.AntStr.feeds_oriented_counterexample`, `Verif.AntStr.exclude_feeds_counterexample`, `Verif.AntStr.feeds_mix_counterexample`.

*Note.* With a known orientation of the feeds no linear polarization is chosen.

### C128 A selection of calibration solutions keeps exactly what is asked for, under its labels

*Plan and model.* Proved for all objects and requests with channels counted from the start, for selections that raise no error. Partial since it is false for channels counted from the end: their order changes and one may be taken twice; windows that do not exist are ignored; components on the Jones axis stay if another one is only that of a window (counterexamples).

*Status.* partial. Theorems: `Verif.CalSelect.kept_partial`, `Verif.CalSelect.absent_window_counterexample`, `Verif.CalSelect.negative_counterexample`, `Verif.CalSelect.one_each_counterexample`, `Verif.CalSelect.mixed_counterexample`.

*Note.* False for negative channel numbers and for windows that do not exist; proved for channels counted from the start.

### C129 A selection of calibration solutions that is refused leaves the object as it was

*Plan and model.* Proved for all errors of the first part, and for all requests without empty lists and without phase centers whose channels exist and whose windows have channels. Partial since it is false otherwise: for phase centers that no time has, a window or a channel that does not exist, the error comes when antennas and times have been cut (counterexamples).

*Status.* partial. Theorems: `Verif.CalSelect.unchanged`, `Verif.CalSelect.whole_partial`, `Verif.CalSelect.centers_counterexample`, `Verif.CalSelect.window_counterexample`, `Verif.CalSelect.channel_counterexample`.

*Note.* False for phase centers, windows or channels that do not exist; proved for requests without these.

### C130 Averaging over redundant baselines gives the weighted mean of each group

*Plan and model.* Proved for all objects whose times are equal or at least the tolerance apart and that have no baseline twice at one time; the clusters of times are those of the model of `find_clusters` (`clusters_split`). Partial since it is false otherwise: for times in a chain the row is left zero and not flagged (counterexample).

*Status.* partial. Theorems: `Verif.Compress.clusters_split`, `Verif.Compress.rows_kept`, `Verif.Compress.averaged_partial`, `Verif.Compress.chain_counterexample`, `Verif.Compress.flagged_counterexample`.

*Note.* averaged_partial is for times that are equal or at least the tolerance apart, as clusters_split shows that find_clusters then gives the sets of equal times. chain_counterexample: otherwise the row may be left zero and unflagged. flagged_counterexample: a flagged channel becomes zero, a wholly flagged row does not.

### C131 Averaging over redundant baselines keeps redundant visibilities and all samples

*Plan and model.* Visibilities: proved for each channel and polarization for which the rows see the same with conjugation only. Partial since for cross polarizations a baseline in the other direction sees the conjugate of the other polarization, and the polarizations are not swapped (counterexample). Samples: proved if the first baseline has all times of its group and no group is flagged as a whole; false if it lacks one (counterexample).

*Status.* partial. Theorems: `Verif.Compress.redundant_kept_partial`, `Verif.Compress.samples_conserved_partial`, `Verif.Compress.cross_pols_counterexample`, `Verif.Compress.lacking_counterexample`.

*Note.* False for cross polarizations of conjugated baselines and for times that the first baseline lacks (counterexamples).

### C132 Reading a part of a uvh5 file gives the part of the whole

*Plan and model.* Proved for all selections as `_select_preprocess` gives them (nonempty, increasing, on the axis), on the model of `_index_dset` (C107 ff.), for three and four axes in the file.

*Status.* proved. Theorems: `Verif.Uvh5.read_part`.

### C133 Writing a part of a uvh5 file changes the selected cells and nothing else

*Plan and model.* Proved for all selections as `_select_preprocess` gives them; storing may round values (a parameter).

*Status.* proved. Theorems: `Verif.Uvh5.write_part`, `Verif.Uvh5.wrong_shape`, `Verif.Uvh5.write_then_read`.

### C134 A uvh5 file written in parts is like the file written at once

*Plan and model.* Proved by induction on the parts.

*Status.* proved. Theorems: `Verif.Uvh5.parts_written`, `Verif.Uvh5.parts_are_whole`.

### C135 A part that cannot be written changes nothing, and additions to the history stay

*Plan and model.* Proved that the file is unchanged for all errors, and the object for all errors but one. Partial since an object whose metadata differ from those of the file loses its data, flag and sample arrays (proved in general, counterexample); after an addition to the history the next part is refused for that reason, and without the comparison it replaces the addition (proved in general, counterexample).

*Status.* partial. Theorems: `Verif.Uvh5.refused_partial`, `Verif.Uvh5.refused_header`, `Verif.Uvh5.second_refused`, `Verif.Uvh5.history_replaced`, `Verif.Uvh5.refused_counterexample`, `Verif.Uvh5.history_counterexample`.

*Note.* Missing: the object after a failed comparison of metadata; additions to the history over several parts (both false).

### C136 Times, antenna pairs and antennas read on demand are those of the file

*Plan and model.* Proved for all files and arguments whose statements about the rows are right, that have no baseline twice at one time, and for which `Nbls` is right (C139); the lists exist unless the order of the rows has to be determined (C10). Partial since it is false for some files of HERA, where a baseline is missing from the list, and for files with a row twice (counterexamples).

*Status.* partial. Theorems: `Verif.FastMeta.times_exact`, `Verif.FastMeta.antpairs_exact`, `Verif.FastMeta.ants_exact`, `Verif.FastMeta.no_error`, `Verif.FastMeta.hera_counterexample`, `Verif.FastMeta.twice_counterexample`.

*Note.* Missing: files for which Nbls is wrong, and files with a row twice and a stated order (false).

### C137 Sidereal times read on demand belong to the times

*Plan and model.* Proved for files with sidereal times whose rows are a grid. Partial since otherwise they are sorted (proved), so that they do not belong to the times if the sidereal time passes through zero (counterexamples: a baseline that lacks a time; a grid in a file without sidereal times).

*Status.* partial. Theorems: `Verif.FastMeta.lsts_partial`, `Verif.FastMeta.lsts_sorted`, `Verif.FastMeta.lsts_hole_counterexample`, `Verif.FastMeta.lsts_missing_counterexample`.

*Note.* Missing: rows that are not a grid, files without sidereal times (false).

### C138 A key is found in a file if the file has data for it

*Plan and model.* Proved for pairs; proved that every key the file has is found, whatever the conjugate of a polarization is; and that keys are found only then if the file does not have the pair in the other direction. Partial since otherwise every polarization is found (proved in general, counterexample): `and` binds stronger than `or`.

*Status.* partial. Theorems: `Verif.FastMeta.key_pair`, `Verif.FastMeta.key_found`, `Verif.FastMeta.key_partial`, `Verif.FastMeta.key_any`, `Verif.FastMeta.key_counterexample`.

*Note.* Missing: keys with a polarization on a pair that the file has in the other direction (false).

### C139 The number of baselines read on demand is that of the data

*Plan and model.* Proved if it is asked to be computed; if the header is right and the telescope is not HERA, or the number is not that of the rows; and for old files of HERA whose rows are a grid. Partial since a right header of a file of HERA is changed to a wrong number if there are as many baselines as rows (counterexample).

*Status.* partial. Theorems: `Verif.FastMeta.nbls_partial`, `Verif.FastMeta.hera_counterexample`.

*Note.* Missing: files of HERA with as many baselines as rows (false).

### C140 Normalization divides each visibility by the autocorrelations of its antennas at its time

*Plan and model.* Proved for rows in the order of time whose times are equal or further apart than the tolerance, with one autocorrelation of an antenna at a time; proved exactly when it is refused for want of autocorrelations. Partial since it is false for rows in another order: the times are put in order only if they are in order (line 11951), and visibilities are divided by autocorrelations of another time (counterexamples). Objects with a polarization for each window are not told apart from Stokes parameters: every channel is its own autocorrelation.

*Status.* partial. Theorems: `Verif.Norm.normalized_partial`, `Verif.Norm.refused`, `Verif.Norm.order_counterexample`, `Verif.Norm.order_flags_counterexample`.

*Note.* Missing: rows that are not in the order of time (false), times closer than the tolerance.

### C141 Normalization can be undone

*Plan and model.* Proved for all orders of rows, whatever order of equal times the sort gives, if both skip the autocorrelations. Partial since with skip_autos=False the autocorrelations are lost (counterexample); visibilities that get a flag become zero and are not brought back (counterexample).

*Status.* partial. Theorems: `Verif.Norm.undone`, `Verif.Norm.autos_counterexample`, `Verif.Norm.flagged_counterexample`.

*Note.* Missing: skip_autos=False (false).

### C142 Removing equalization coefficients corrects every visibility once

*Plan and model.* Proved for all objects whose statements about their rows are right and whose antennas belong to the telescope. That the coefficients are removed is not recorded: a second call removes them again (counterexample, not part of the claim).

*Status.* proved. Theorems: `Verif.EqCoeff.removed`, `Verif.EqCoeff.refused`, `Verif.EqCoeff.again_counterexample`.

*Note.* For objects whose statements about their rows are right and whose antennas belong to the telescope.

### C143 Sums and differences of visibilities need objects that agree

*Plan and model.* Proved. Partial since names of files count as parameters here, though not when objects are compared: data from two files are refused (counterexample); if the file name is overridden the check of the sum fails after the object has changed in place (counterexample); an override that is not a string switches all overrides off without an error (counterexample).

*Status.* partial. Theorems: `Verif.SumVis.accepted_iff`, `Verif.SumVis.misnamed`, `Verif.SumVis.sum_ok`, `Verif.SumVis.unchanged`, `Verif.SumVis.final_partial`, `Verif.SumVis.files_counterexample`, `Verif.SumVis.files_override_counterexample`, `Verif.SumVis.nonstring_counterexample`.

*Note.* Missing: data from different files (false), overrides that are not strings (false).

### C144 The difference undoes the sum

*Plan and model.* Proved for exact numbers.

*Status.* proved. Theorems: `Verif.SumVis.sum_diff`.

*Note.* Exact arithmetic.

### C145 The check passes exactly the consistent objects

*Plan and model.* Proved for all objects whose arrays have the right shapes and whose window numbers are different. Partial since objects are not all consistent that pass: baseline numbers need not belong to the antennas and blts_are_rectangular is not looked at (counterexamples), though selections by baseline rely on both.

*Status.* partial. Theorems: `Verif.Check.passes_iff`, `Verif.Check.baselines_counterexample`, `Verif.Check.rect_counterexample`.

*Note.* Missing: baseline numbers and the statement about a grid are not checked (false).

### C146 Autocorrelations are made real and nothing else

*Plan and model.* Proved. Partial since real values change too: a negative Stokes Q of an autocorrelation becomes positive if any autocorrelation is not real (counterexample); objects with a polarization for each window cannot be changed, there is a KeyError (counterexample).

*Status.* partial. Theorems: `Verif.Check.passes_iff`, `Verif.Check.passed`, `Verif.Check.real_after`, `Verif.Check.negative_counterexample`, `Verif.Check.flexpol_counterexample`.

*Note.* Missing: real negative values stay (false), a polarization for each window (false).

### C147 A check changes an object only if asked, and only once

*Plan and model.* Proved. Partial since a check that fails may have turned the object (counterexample), and an object without data is left with turned vectors and an error (counterexample).

*Status.* partial. Theorems: `Verif.Check.unchanged`, `Verif.Check.passed`, `Verif.Check.again`, `Verif.Check.turned_counterexample`, `Verif.Check.nodata_counterexample`.

*Note.* Missing: a failed check changes nothing (false if it may turn the object).

### C148 A uvh5 file gives back every parameter

*Plan and model.* Proved for all objects with plain text, names without slashes, single values of keywords, and consistent statements about rows (`round_trip`); text that is not ASCII is refused (`not_ascii`). Partial since not everything else is refused: byte strings and lists of strings come back as other values, a keyword with a slash makes a file that cannot be read (`slash`, for all objects), one that begins with a slash is lost, and some statements about rows come back changed (counterexamples).

*Status.* partial. Theorems: `Verif.H5Head.round_trip`, `Verif.H5Head.not_ascii`, `Verif.H5Head.slash`, `Verif.H5Head.bytes_counterexample`, `Verif.H5Head.list_counterexample`, `Verif.H5Head.slash_counterexample`, `Verif.H5Head.lost_counterexample`, `Verif.H5Head.faster_counterexample`, `Verif.H5Head.hera_counterexample`.

*Note.* Missing: values and names that are written but do not come back are refused (false).

### C149 Missing telescope parameters are filled with those of the same antennas

*Plan and model.* Proved if the antennas found by name come before those found by number. Partial since otherwise the positions are given to the wrong antennas (counterexample), and since without the number of antennas nothing is filled though all are in the table (counterexample).

*Status.* partial. Theorems: `Verif.KnownTel.kept`, `Verif.KnownTel.filled_partial`, `Verif.KnownTel.all_filled`, `Verif.KnownTel.others_filled`, `Verif.KnownTel.loc_eq`, `Verif.KnownTel.incomplete`, `Verif.KnownTel.order_counterexample`, `Verif.KnownTel.nants_counterexample`.

*Note.* Missing: antennas found by number before antennas found by name (false), number of antennas not set (false).

### C150 A selection from a flag object keeps exactly what is asked for

*Plan and model.* Proved for objects whose counts are right. Partial since criteria do not always count: positions of antennas are ignored for baseline objects and if antennas are named, and a polarization in one of the pairs overrides those asked for separately (counterexamples).

*Status.* partial. Theorems: `Verif.FlagSel.kept`, `Verif.FlagSel.ants_order`, `Verif.FlagSel.Examples.twice_counterexample`, `Verif.FlagSel.Examples.antInds_counterexample`, `Verif.FlagSel.Examples.overridden_counterexample`.

*Note.* Missing: positions of antennas of baseline objects, polarizations besides those of pairs (false).

### C151 A selection from a flag object is refused if something is not there, and then changes nothing

*Plan and model.* The exact condition is proved (`accepts_iff`). Partial since a wrong position of an antenna spoils the object, whose times are cut while its arrays are not (counterexample; `refused` shows it is the only such case), since the only channel of an object is refused by position, and since combined polarizations are refused by name (counterexamples).

*Status.* partial. Theorems: `Verif.FlagSel.accepts_iff`, `Verif.FlagSel.refused`, `Verif.FlagSel.Examples.spoiled_counterexample`, `Verif.FlagSel.Examples.oneChannel_counterexample`, `Verif.FlagSel.Examples.collapsed_counterexample`.

*Note.* Missing: wrong positions of antennas leave the object as it was (false).

### C152 Combined metrics are averages over all objects

*Plan and model.* Proved for exact numbers without NaN and negative weights. Partial since steps agree only if no sum of weights is below the threshold of 1e-10 (counterexample), since objects of other times are averaged without an error (counterexample), and since the stored squares of weights are not updated (counterexample).

*Status.* partial. Theorems: `Verif.FlagMet.combine_accepts`, `Verif.FlagMet.combine_spec`, `Verif.FlagMet.combine_order`, `Verif.FlagMet.combine_steps`, `Verif.FlagMet.combine_steps_iff`, `Verif.FlagMet.tiny_counterexample`, `Verif.FlagMet.other_times_counterexample`, `Verif.FlagMet.stale_counterexample`.

*Note.* Missing: steps with tiny weights, squares of weights (false).

### C153 Waterfalls and collapsed polarizations are averages over what was observed at each time

*Plan and model.* Proved for exact numbers without NaN, negative weights and weights below the threshold. Partial since shares of flags have weight one whatever their number (counterexample), since polarizations cannot be collapsed once squares of weights are stored, and the failure leaves a changed object (`pol_spoils`, for all objects), and since "or" with squares of weights fails after polarizations are gone (counterexample).

*Status.* partial. Theorems: `Verif.FlagMet.pol_metric`, `Verif.FlagMet.pol_accepts`, `Verif.FlagMet.pol_flags`, `Verif.FlagMet.pol_shares`, `Verif.FlagMet.pol_spoils`, `Verif.FlagMet.wf_metric`, `Verif.FlagMet.wf_all`, `Verif.FlagMet.wf_lsts`, `Verif.FlagMet.wf_orders`, `Verif.FlagMet.shares_counterexample`, `Verif.FlagMet.unpack_counterexample`, `Verif.FlagMet.spoiled_counterexample`.

*Note.* Missing: weights of shares of flags, errors leave the object as it was (false).

### C154 Antennas are put in the order of another object with their names and positions

*Plan and model.* Proved for antenna numbers up to 99999. Partial since larger ones that are close are regarded as sorted (counterexample), and since there is an error if the other object has more antennas (`more`, for all objects).

*Status.* partial. Theorems: `Verif.AntLike.sorted`, `Verif.AntLike.unchanged`, `Verif.AntLike.more`, `Verif.AntLike.Examples.subset_counterexample`, `Verif.AntLike.Examples.large_counterexample`.

*Note.* Missing: antenna numbers above 99999 (false).

### C155 Reading a file with selection keywords is reading it and selecting

*Plan and model.* Proved for all types but MIR from the hypothesis that readers and `select` obey what is handed to them. Partial since some keywords are handed to neither of them and have no effect, without an error or a warning: `catalog_names` for Miriad, MS, FHD and MWA files, `lsts` and `lst_range` for Miriad files if none of six other keywords is given, `ant_str` for MIR files (counterexamples, each for all files and values).

*Status.* partial. Theorems: `Verif.ReadSel.read_selects_partial`, `Verif.ReadSel.read_refused`, `Verif.ReadSel.names_ignored_counterexample`, `Verif.ReadSel.lst_ignored_counterexample`, `Verif.ReadSel.string_ignored_counterexample`, `Verif.ReadSel.mir_baselines`.

*Note.* Missing: keywords that read drops for some types of files (false).

### C156 Reading several files puts together what is read from each

*Plan and model.* Proved for keywords other than four and for files other than FHD. Partial since `catalog_names` does nothing for the first file, `corrchunk`, `receivers` and `sidebands` only count for the first file, all FHD data sets are read with the auxiliary files of the first one, and the warning names the first file for others (counterexamples, each for all files).

*Status.* partial. Theorems: `Verif.ReadSel.tree_sum`, `Verif.ReadSel.merge_sum`, `Verif.ReadSel.merge_fold`, `Verif.ReadSel.many_skip_partial`, `Verif.ReadSel.many_strict_partial`, `Verif.ReadSel.many_error_partial`, `Verif.ReadSel.many_uncaught_partial`, `Verif.ReadSel.one_names_counterexample`, `Verif.ReadSel.two_chunks_counterexample`, `Verif.ReadSel.fhd_counterexample`, `Verif.ReadSel.warned_counterexample`.

*Note.* Missing: keywords handed on for some files only, FHD data sets (false).

### C157 A selection from MIR data keeps exactly the spectra that meet it with all that belongs to them

*Plan and model.* Proved for lists of conditions. Partial since a condition on a name that is unknown is passed over without an error, a tuple of conditions as in the documentation is an error or (if three) keeps everything (both for all inputs), conditions on several tables combined by "or" are all required, a second selection with `and_mask=False` can lose records, and autocorrelations of integrations that are not selected stay (counterexamples).

*Status.* partial. Theorems: `Verif.MirSel.select_sp`, `Verif.MirSel.select_closed`, `Verif.MirSel.select_accepts`, `Verif.MirSel.select_twice`, `Verif.MirSel.select_reset`, `Verif.MirSel.unknown_counterexample`, `Verif.MirSel.unknown_alone_counterexample`, `Verif.MirSel.tuple_counterexample`, `Verif.MirSel.Examples.or_tables_counterexample`, `Verif.MirSel.Examples.or_mask_counterexample`, `Verif.MirSel.Examples.auto_stays_counterexample`.

*Note.* Missing: unknown names, tuples, "or" across tables, and_mask=False, autocorrelations (false).

### C158 Reading MIR files with selection keywords selects what they say

*Plan and model.* Proved for antenna numbers (`mir_antennas`); for the other keywords it is C157 for the list of conditions. Partial since `bls` and `lst_range` do nothing, as they are turned into conditions on names that no table has (`mir_ignored_counterexample`, for all data and values).

*Status.* partial. Theorems: `Verif.MirSel.mir_antennas`, `Verif.MirSel.mir_ignored_counterexample`.

*Note.* Missing: bls and lst_range (false); other keywords by C157.

### C159 Visibilities survive being written to a measurement set and read back

*Plan and model.* Proved for one window (`one_survives`) and for several windows if no two rows have the same time and antennas (`many_survives`, which also gives the order of rows). Partial since two polarizations in the order opposite to CASA's are written as none, without an error (`reversed_pair_counterexample`, for all objects), of three one is left; a window of one channel cannot be read back by default if it is alone (for all objects), is an error if another is left and is lost silently otherwise; with several windows rows of the same time and antennas become one; and files not written by pyuvdata whose polarizations are not in the order of CASA numbers get wrong labels. Pseudo-Stokes polarizations are refused (`stokes_refused`).

*Status.* partial. Theorems: `Verif.MsVis.one_survives`, `Verif.MsVis.many_survives`, `Verif.MsVis.unprojected_refused`, `Verif.MsVis.stokes_refused`, `Verif.MsVis.reversed_pair_counterexample`, `Verif.MsVis.reversed_three_counterexample`, `Verif.MsVis.single_refused_counterexample`, `Verif.MsVis.single_one_left_counterexample`, `Verif.MsVis.single_lost_counterexample`, `Verif.MsVis.same_merged_counterexample`, `Verif.MsVis.unsorted_labels_counterexample`.

*Note.* Missing: polarizations in the opposite order, windows of one channel, rows of same time and antennas with several windows, unsorted polarizations of other files (false).

### C160 Writing a measurement set does not change the object, and weights of records belong to their polarizations

*Plan and model.* Proved without `flip_conj` or for several windows (`write_leaves`), and the weights for several windows (`weight_many`). Partial since with `flip_conj` and one window the data of the object itself are conjugated if polarizations are a slice (`in_place_counterexample`, for all objects of one polarization), and since the weights of one window are in the order of the object, not in that of the visibilities of the record (`weight_counterexample`).

*Status.* partial. Theorems: `Verif.MsVis.write_leaves`, `Verif.MsVis.weight_many`, `Verif.MsVis.in_place_counterexample`, `Verif.MsVis.weight_counterexample`.

*Note.* Missing: flip_conj with one window; weights of one window (false).

### C161 The catalog of phase centers survives a measurement set

*Plan and model.* Proved for numbers that are not negative and ephemerides of two or more times that are apart, except for proper motions. Partial since the second component of the proper motion is replaced by the first (`pm_dec_counterexample`, for all entries), entries with negative numbers lose their ephemerides (`negative_counterexample`, for all), ephemerides of one time become sidereal (`single_sample_counterexample`, for all), radial velocities and distances are not written, and times that are close to two others are an error (`pop_counterexample`).

*Status.* partial. Theorems: `Verif.MsCat.write_accepts`, `Verif.MsCat.cat_back`, `Verif.MsCat.pm_dec_counterexample`, `Verif.MsCat.negative_counterexample`, `Verif.MsCat.single_sample_counterexample`, `Verif.MsCat.pop_counterexample`.

*Note.* Missing: proper motions with different components, radial velocities and distances, negative numbers, ephemerides of one time, close times (false).

### C162 Antennas and the location of the telescope survive a measurement set

*Plan and model.* Proved for antennas with different numbers that are not at the center of the earth or moon. Partial since the name of the instrument becomes that of the telescope (for all telescopes), antennas at the center are lost (for all), and diameters of which none is positive are not set afterwards.

*Status.* partial. Theorems: `Verif.MsAnt.ants_back`, `Verif.MsAnt.ellipsoid_back`, `Verif.MsAnt.instrument_counterexample`, `Verif.MsAnt.center_counterexample`, `Verif.MsAnt.diams_counterexample`.

*Note.* Missing: instrument, antennas at the center, diameters that are not positive (false).

### C163 Scan numbers count the stretches of one phase center

*Plan and model.* Proved in full for objects whose phase centers are in the catalog.

*Status.* proved. Theorems: `Verif.Scan.scans_number`, `Verif.Scan.same_scan`, `Verif.Scan.scans_stay`.

### C164 Visibilities of the first MWA correlator are those of their antennas and polarizations

*Plan and model.* Proved in full for files whose entries are the products of outputs of the filter bank in the order of the correlator (`Correlated`, which exist for all signals).

*Status.* proved. Theorems: `Verif.Mwa.vis_of_antennas`, `Verif.Mwa.pols_order`, `Verif.Mwa.file_exists`.

### C165 Files of MWA data go to the place of their coarse channel

*Plan and model.* Places of files, values and the steps of windows are proved in full, frequencies if the coarse channels of the observation follow each other. Partial since otherwise frequencies are wrong for all channels that are not as far from the middle one as they are in the list (`freq_counterexample`, for all observations); such observations are not told from others, as only positions are looked at.

*Status.* partial. Theorems: `Verif.Mwa.file_block`, `Verif.Mwa.blocks_sorted`, `Verif.Mwa.readFiles_get`, `Verif.Mwa.readFiles_disjoint`, `Verif.Mwa.freq_true`, `Verif.Mwa.mwax_center`, `Verif.Mwa.window_steps`, `Verif.Mwa.freq_counterexample`.

*Note.* Missing: frequencies of coarse channels that do not follow each other (false).

### C166 Flags of MWA data are those that were asked for

*Plan and model.* Proved in full in exact arithmetic for times at the end that are not negative.

*Status.* proved. Theorems: `Verif.Mwa.flagInit_accepts`, `Verif.Mwa.flagInit_exact`, `Verif.Mwa.goodtime_exact`, `Verif.Mwa.missing_iff`, `Verif.Mwa.coarseFlag_iff`, `Verif.Mwa.missing_zero`, `Verif.Mwa.aoFlag_iff`.

### C167 Antennas with small autocorrelations are flagged

*Plan and model.* Proved for `flag_small_auto_ants=False` and for removal. Partial since with `flag_small_auto_ants=True` nothing is flagged if flagged antennas are not removed, not even what is flagged with `False` (`small_counterexample`, for all data).

*Status.* partial. Theorems: `Verif.Mwa.small_parts`, `Verif.Mwa.small_ants`, `Verif.Mwa.small_counterexample`.

*Note.* Missing: flag_small_auto_ants=True without removal (false).

### C168 Corrections of MWA data undo what the correlator did

*Plan and model.* Proved in exact arithmetic with the solution of the integral equation as a parameter. Partial since a negative value whose sigma is zero changes its sign as soon as any other entry is corrected (`crosses_sign_counterexample`, for all arrays); texts of cable lengths and the convergence of Newton's method are not modelled.

*Status.* partial. Theorems: `Verif.Mwa.bandCorr_undo`, `Verif.Mwa.cableCorr_undo`, `Verif.Mwa.cheb_poly`, `Verif.Mwa.bilinear`, `Verif.Mwa.chebCross_spec`, `Verif.Mwa.crosses_solved`, `Verif.Mwa.crosses_zero`, `Verif.Mwa.sigPols_spec`, `Verif.Mwa.crosses_sign_counterexample`.

*Note.* Missing: negative values with zero sigma (false), convergence of the solver.

### C169 A selection on reading a Miriad file keeps what was asked for

*Plan and model.* Proved for requests that leave a single antenna pair or have neither times nor polarizations, antennas in ascending order if pairs are given as well, a polarization with a pair only for a single pair, and integrations of the same length. Partial since otherwise it is false: times and polarizations hold for the last pair only and all records of the other pairs are read (`otherKeywords_counterexample`); antennas and pairs that have nothing in common, or antennas in descending order, read everything (`emptyIntersection_counterexample`, `unsorted_counterexample`); times are taken in the middle of integrations as long as the first one (`otherLengths_counterexample`); a range of one time is refused (`pointRange_counterexample`); antenna 2047 is read as -1 (`getIJ_mkbl_counterexample`).

*Status.* partial. Theorems: `Verif.Miriad.bl2ant_ij2bl`, `Verif.Miriad.getIJ_mkbl`, `Verif.Miriad.readCalls_partial`, `Verif.Miriad.readSel_partial`, `Verif.Miriad.otherKeywords_counterexample`, `Verif.Miriad.emptyIntersection_counterexample`, `Verif.Miriad.unsorted_counterexample`, `Verif.Miriad.otherLengths_counterexample`, `Verif.Miriad.pointRange_counterexample`, `Verif.Miriad.getIJ_mkbl_counterexample`.

*Note.* Missing: several pairs with times or polarizations, disjoint or unsorted antennas, integrations of different lengths (all false).

### C170 Rows survive Miriad files

*Plan and model.* Proved in exact arithmetic for objects without two rows of the same time, antennas and length of integration, in a total order of times and antennas. Partial since of such rows only the last is kept (`sameRows_counterexample`), cells without a record have a sample count of one (`missing_counterexample`) and a row whose data are all flagged loses its coordinates if its first polarization has no record (`flaggedRow_counterexample`). The order of texts of times and the rounding of lengths to 32 bits are not modelled.

*Status.* partial. Theorems: `Verif.Miriad.readRows_write_partial`, `Verif.Miriad.readRows_complete`, `Verif.Miriad.sameRows_counterexample`, `Verif.Miriad.missing_counterexample`, `Verif.Miriad.flaggedRow_counterexample`.

*Note.* Missing: rows with the same time and antennas, missing records (false); order of texts, rounding to 32 bits.

### C171 Antennas survive Miriad files

*Plan and model.* Proved for at least two antennas whose numbers are different and have a gap or are 0, 1, 2, ... in this order, names without a comma followed by a blank, and positions that are recognised as absolute ones. Partial since antennas with the numbers 0, 1, 2, ... in another order get each other's positions (`permuted_counterexample`), a telescope with one antenna cannot be read (`oneAntenna_counterexample`) and a name with a comma and a blank becomes two (`names_counterexample`).

*Status.* partial. Theorems: `Verif.Miriad.readAnts_write_partial`, `Verif.Miriad.splitCS_joinCS`, `Verif.Miriad.permuted_counterexample`, `Verif.Miriad.oneAntenna_counterexample`, `Verif.Miriad.names_counterexample`.

*Note.* Missing: unsorted numbers without gaps, one antenna, names with a comma and a blank (all false).

### C172 Frequencies survive Miriad files

*Plan and model.* Proved for windows of at least two channels that are evenly spaced and as wide as their distance, numbered 0, 1, 2, ... Partial since a window with one channel is read with a width of zero (`oneChannel_counterexample`, for all widths) and windows lose their numbers (`windowNumbers_counterexample`).

*Status.* partial. Theorems: `Verif.Miriad.readFreqs_write_partial`, `Verif.Miriad.oneChannel_counterexample`, `Verif.Miriad.windowNumbers_counterexample`.

*Note.* Missing: windows of one channel, numbers of windows (false).

### C173 Extra keywords survive Miriad files

*Plan and model.* Proved for names of at most eight characters that are not those of variables of the format and texts, integers of 32 bits, floating point numbers and truth values. Partial since longer names are cut (`longName_counterexample`) and keywords with the same start overwrite each other (`sameStart_counterexample`), a text "True" becomes a truth value (`trueText_counterexample`), larger integers change (`largeInt_counterexample`), keywords with the name of a variable are lost (`knownName_counterexample`) and truth values of numpy are refused (`npBool_counterexample`).

*Status.* partial. Theorems: `Verif.Miriad.readKey_write_partial`, `Verif.Miriad.longName_counterexample`, `Verif.Miriad.sameStart_counterexample`, `Verif.Miriad.trueText_counterexample`, `Verif.Miriad.largeInt_counterexample`, `Verif.Miriad.knownName_counterexample`, `Verif.Miriad.npBool_counterexample`.

*Note.* Missing: long names, "True" as a text, large integers, known names, truth values of numpy (all false).

### C174 A new object of flags has an entry for everything in the data

*Plan and model.* Proved, also that such an object is read from its file as it was made. Partial since the history and the label of an object that was used before stay in front and squares of weights of other data stay (`used_counterexample`), and keywords of calibrations do not come along (`calKeywords_counterexample`).

*Status.* partial. Theorems: `Verif.FlagIo.vis_baseline`, `Verif.FlagIo.vis_flags`, `Verif.FlagIo.vis_waterfall`, `Verif.FlagIo.vis_refused`, `Verif.FlagIo.cal_antenna`, `Verif.FlagIo.cal_flags`, `Verif.FlagIo.cal_waterfall`, `Verif.FlagIo.cal_refused`, `Verif.FlagIo.vis_file`, `Verif.FlagIo.used_counterexample`, `Verif.FlagIo.calKeywords_counterexample`.

*Note.* Missing: objects that were used before, keywords of calibrations (false).

### C175 Files of flags of all ages are read

*Plan and model.* Proved for objects of each type and mode with a complete telescope and for every choice of missing entries. Partial since baselines are numbered anew (`numbering_counterexample`, for all other numberings), guessed widths are negative if frequencies go down (`descending_counterexample`) and a file with one channel and no width cannot be read (`oneChannel_counterexample`). The header of the telescope is C150; keywords with a slash and metafits files are not modelled.

*Status.* partial. Theorems: `Verif.FlagIo.tells_read`, `Verif.FlagIo.write_tells`, `Verif.FlagIo.write_read`, `Verif.FlagIo.read_history`, `Verif.FlagIo.read_name`, `Verif.FlagIo.strange_refused`, `Verif.FlagIo.read_baselines`, `Verif.FlagIo.read_antennas`, `Verif.FlagIo.unknown_antennas`, `Verif.FlagIo.numbering_counterexample`, `Verif.FlagIo.descending_counterexample`, `Verif.FlagIo.oneChannel_counterexample`.

*Note.* Missing: other numberings of baselines, widths for descending frequencies or one channel (false).

### C176 Lists of files and of objects are read alike and added

*Plan and model.* Proved that entries are added in order. Partial since read gives no keyword to the first file, and the name of the telescope to none (`readMany_counterexample`); UVFlag gives the label only to the first object and the telescope's name to none, and ignores label, mode and copying for files (`ignored_counterexample`, `initMany_append`).

*Status.* partial. Theorems: `Verif.FlagIo.readMany_append`, `Verif.FlagIo.initMany_append`, `Verif.FlagIo.initMany_one`, `Verif.FlagIo.initOne_given`, `Verif.FlagIo.readMany_counterexample`, `Verif.FlagIo.ignored_counterexample`.

*Note.* Missing: keywords for the first file, telescope name, label (false).

### C177 Packing of MIR visibilities keeps flags and 14 bits

*Plan and model.* Proved with exact arithmetic. Partial since the largest part is taken over flagged channels as well, though the code says it is not, so that a flagged channel 2**15 times as large turns good channels to zero (`flaggedLarge_counterexample`, for all values), an imaginary part of -32768 next to another real part costs one bit of all others (`edge_counterexample`, for all exponents), and with exponents below -66 small values become zero (`tiny_counterexample`, for all of them).

*Status.* partial. Theorems: `Verif.MirData.conv_back`, `Verif.MirData.packed_range`, `Verif.MirData.raw_back_partial`, `Verif.MirData.flaggedLarge_counterexample`, `Verif.MirData.edge_counterexample`, `Verif.MirData.tiny_counterexample`.

*Note.* Missing: good channels alone set the precision; packed values of -32768 that are no flags; exponents below -66 (false).

### C178 Averaging of MIR channels is a weighted mean

*Plan and model.* Means proved for all weights, averaging twice for weights that are not negative. Partial since factors go to records by their order in the table, and data may be in another order (`rechunkOrder_counterexample`, for all pairs of records), which the check before does not see.

*Status.* partial. Theorems: `Verif.MirData.rechunk_isSome`, `Verif.MirData.rechunk_mean`, `Verif.MirData.rechunk_one`, `Verif.MirData.rechunk_twice`, `Verif.MirData.rechunkLoaded_partial`, `Verif.MirData.rechunkOrder_counterexample`.

*Note.* Missing: data in another order than the table (false).

### C179 System temperatures are applied once and can be undone

*Plan and model.* Proved. Partial since undoing with temperatures of the detectors divides weights by the fourth power of the factor instead of giving them back (`tsysDetUndo_counterexample`, for all temperatures).

*Status.* partial. Theorems: `Verif.MirData.tsysWt_meaning`, `Verif.MirData.tsys_agree`, `Verif.MirData.tsysWt_undo`, `Verif.MirData.tsysWt_flags`, `Verif.MirData.tsysDet_flags`, `Verif.MirData.tsysDetUndo_counterexample`, `Verif.MirData.tsysCmd_refused`, `Verif.MirData.tsysCmd_state`, `Verif.MirData.rechunk_scaled`, `Verif.MirData.tsys_rechunk`.

*Note.* Missing: weights after undoing with detectors (false).

### C180 Loading of MIR data gives what was asked for

*Plan and model.* Records, order and values proved for all earlier states. Partial since visibilities that are loaded keep their state of system temperatures whatever is asked for (`loadTsys_counterexample`, for all selections), and packed data that are loaded are converted without the gains of a COMPASS solution (`loadCal_counterexample`); with allow_downselect=False all is as asked for (`load_again`). Averaging between the calls is not modelled here.

*Status.* partial. Theorems: `Verif.MirData.load_good_partial`, `Verif.MirData.load_again`, `Verif.MirData.loadTsys_counterexample`, `Verif.MirData.loadCal_counterexample`.

*Note.* Missing: temperatures and gains as asked for when data are loaded already (false).

### C181 Packed MIR files are written, scanned and read at the right bytes

*Plan and model.* Proved byte by byte for the newer format of cross-correlations with memory maps. Partial since with use_mmap=False the step to the next record forgets headers, so that after a gap or a change of size the wrong bytes are read (`fileAll_counterexample`, for all pairs of such records); without these it is right (`fileAll_partial`).

*Status.* partial. Theorems: `Verif.MirPack.write_read`, `Verif.MirPack.scan_write`, `Verif.MirPack.scan_cut`, `Verif.MirPack.mmapAll_exact`, `Verif.MirPack.readPos_eq`, `Verif.MirPack.fill_eq`, `Verif.MirPack.fileAll_partial`, `Verif.MirPack.fileAll_counterexample`.

*Note.* Missing: gaps and changes of size without memory maps (false).

### C182 Groups of MIR rows are complete and in order

*Plan and model.* Proved for keys in any linear order, with index positions and without a further selection.

*Status.* proved. Theorems: `Verif.MirPack.groupBy_eq`, `Verif.MirPack.groupBy_keys`, `Verif.MirPack.groupBy_mem`.

### C183 Values of a CST file are put at their angles

*Plan and model.* Proved for files in the order of CST, whole files included. Partial since the order of rows is never looked at: a file with decreasing zenith angles is read upside down (`reversed_counterexample`, for all grids), and since only numbers of angles are compared, a missing point gets the value of a point that is given twice (`hole_counterexample`).

*Status.* partial. Theorems: `Verif.Cst.grid_read_partial`, `Verif.Cst.read_regular`, `Verif.Cst.spaced_const`, `Verif.Cst.readPower_file`, `Verif.Cst.readField_file`, `Verif.Cst.power_of_field`, `Verif.Cst.reversed_counterexample`, `Verif.Cst.hole_counterexample`.

*Note.* Missing: rows in another order, and grids with a hole (false).

### C184 The second polarization of a CST beam is the first one turned by a right angle

*Plan and model.* Proved with exact arithmetic. Partial since electric fields take any feed but `x`, also `xx`, for `y` (`feeds_counterexample`).

*Status.* partial. Theorems: `Verif.Cst.second_meaning`, `Verif.Cst.circle_rotated`, `Verif.Cst.closed_refused`, `Verif.Cst.rotPol_twice`, `Verif.Cst.labels_agree`, `Verif.Cst.feeds_counterexample`.

*Note.* Missing: labels of fields for feeds other than x and y (false).

### C185 Columns and frequencies of CST files are found in their texts

*Plan and model.* Proved for numbers that do not follow a point or digit, character by character. Partial since a number after a version and a point is taken for its decimals, as in v2.150MHz (`point_counterexample`, for all numbers), numbers with exponents are read as the exponent (`exponent_counterexample`), and tabs in names of columns are kept (`tab_counterexample`).

*Status.* partial. Theorems: `Verif.Cst.name2freq_written`, `Verif.Cst.si_units`, `Verif.Cst.header_text`, `Verif.Cst.colOf_some`, `Verif.Cst.colOf_none`, `Verif.Cst.powerCol_iff`, `Verif.Cst.point_counterexample`, `Verif.Cst.exponent_counterexample`, `Verif.Cst.tab_counterexample`.

*Note.* Missing: numbers after a point, exponents, tabs in names (false).

### C186 Each CST file is read with its own frequency and feed

*Plan and model.* Proved. Partial since a frequency that is asked for twice is read twice and refused (`twice_counterexample`), and extra keywords of the settings replace those that are given, not the other way round (`extra_counterexample`, for all keywords).

*Status.* partial. Theorems: `Verif.Cst.files_lists`, `Verif.Cst.files_single`, `Verif.Cst.files_refused`, `Verif.Cst.settings_select`, `Verif.Cst.pick_none`, `Verif.Cst.settings_override`, `Verif.Cst.extra_kept`, `Verif.Cst.twice_counterexample`, `Verif.Cst.extra_counterexample`.

*Note.* Missing: a frequency twice, extra keywords over settings (false).

### C187 The beam of an MWA tile is the sum of the fields of its dipoles

*Plan and model.* Proved from the tables of the file to the data of the object, by induction over degrees for the places of Legendre values and over dipoles for the sum.

*Status.* proved. Theorems: `Verif.MwaBeam.read_field`, `Verif.MwaBeam.response_sum`, `Verif.MwaBeam.dipole_read`, `Verif.MwaBeam.psinArray_place`, `Verif.MwaBeam.p1Array_place`, `Verif.MwaBeam.sumOrders_eq`.

### C188 Each delay and amplitude is used for the dipole of its position

*Plan and model.* Proved for dipoles whose numbers have equally many digits. Partial since names are sorted as texts: with dipoles 1 to 16, as in every MWA tile, only the first delay is used for the dipole of its number (`sixteen_counterexample`, for all such files).

*Status.* partial. Theorems: `Verif.MwaBeam.texts_in_order`, `Verif.MwaBeam.dipoles_in_order_partial`, `Verif.MwaBeam.sixteen_counterexample`.

*Note.* Missing: numbers with different numbers of digits (false).

### C189 Terminated dipoles of the MWA are silent

*Plan and model.* Proved. Partial since the arrays of the caller are changed (`arrays_changed`), so that a second read with the same delays, or the next file of a list, takes terminated dipoles for live ones (`again_counterexample`: the difference is the field of all terminated dipoles).

*Status.* partial. Theorems: `Verif.MwaBeam.read_field`, `Verif.MwaBeam.read_default`, `Verif.MwaBeam.big_refused`, `Verif.MwaBeam.shape_refused`, `Verif.MwaBeam.arrays_changed`, `Verif.MwaBeam.again_counterexample`.

*Note.* Missing: arrays of the caller stay (false).

### C190 Frequencies, directions and components of an MWA beam are what the object says

*Plan and model.* Proved for frequencies and directions. Partial since azimuths do not close if a turn is not a whole number of pixels (`turn_counterexample`), since the first component is along zenith angle although basis vectors say azimuth (`vector_counterexample`), and since `P1sin` has the wrong sign at the nadir, which no read reaches (`nadir_counterexample`).

*Status.* partial. Theorems: `Verif.MwaBeam.read_field`, `Verif.MwaBeam.directions`, `Verif.MwaBeam.range_refused`, `Verif.MwaBeam.turn_counterexample`, `Verif.MwaBeam.vector_counterexample`, `Verif.MwaBeam.nadir_counterexample`.

*Note.* Missing: whole turns for other resolutions, directions of the components (false).

### C191 Shifts of MIR spectra by whole channels move data, flags and weights together

*Plan and model.* Proved for every spectrum by position of the slices.

*Status.* proved. Theorems: `Verif.MirShift.whole_moves`, `Verif.MirShift.whole_near`, `Verif.MirShift.whole_exact`, `Verif.MirShift.parts_near`, `Verif.MirShift.kernel_refused`.

### C192 Shifts of MIR spectra by fractions of a channel interpolate at the right place

*Plan and model.* Proved for the linear kernel. Partial since the cubic kernel is mirrored: it moves the spectrum by 2 floor(s) + 1 - s instead of s (`cubic_mirrored_counterexample`, for all spectra), so ramps come out wrong unless the fraction is one half (`cubic_ramp_counterexample`, `cubic_half_partial`).

*Status.* partial. Theorems: `Verif.MirShift.linear_moves`, `Verif.MirShift.kernel_parts`, `Verif.MirShift.cubic_half_partial`, `Verif.MirShift.cubic_mirrored_counterexample`, `Verif.MirShift.cubicAt_ramp`, `Verif.MirShift.cubic_ramp_counterexample`.

*Note.* Missing: cubic kernel for fractions other than one half (false).

### C193 Flags follow shifts of MIR spectra by fractions of a channel

*Plan and model.* Proved with flag_adj. Partial since with flag_adj off all flags of the spectrum are dropped and zeros in their place are mixed into good channels (`flags_dropped_counterexample`, for all spectra).

*Status.* partial. Theorems: `Verif.MirShift.flags_spread`, `Verif.MirShift.flags_dropped_counterexample`.

*Note.* Missing: flags without flag_adj (false).

### C194 redoppler_data shifts each MIR spectrum by its own frequency

*Plan and model.* Proved, for data in the order of the metadata (shifts are matched to spectra by position).

*Status.* proved. Theorems: `Verif.MirShift.redoppler_each`, `Verif.MirShift.redoppler_whole`.

### C195 COMPASS solutions calibrate each MIR spectrum by the gains of its antennas

*Plan and model.* Proved for parallel hands and for data of cross hands only. Partial since cross hands beside parallel hands are all flagged and lose their weight although gains are there (`mixed_counterexample`, for all files: the code asks whether all records are of cross hands, not whether any is).

*Status.* partial. Theorems: `Verif.Compass.calibrated_partial`, `Verif.Compass.unknown_flagged`, `Verif.Compass.corr_get`, `Verif.Compass.dget_pairs`, `Verif.Compass.dget_ant`, `Verif.Compass.calibrate_both`, `Verif.Compass.mixed_counterexample`.

*Note.* Missing: cross hands beside parallel hands (false).

### C196 COMPASS flags reach the spectra that they were made for

*Plan and model.* Proved. Partial since cross hands beside parallel hands never get the flags of their antennas (`static_flags_counterexample`, for all files).

*Status.* partial. Theorems: `Verif.Compass.record_flags`, `Verif.Compass.static_flags_partial`, `Verif.Compass.integration_near`, `Verif.Compass.unpack_bit`, `Verif.Compass.calibrate_both`, `Verif.Compass.static_flags_counterexample`.

*Note.* Missing: flags of antennas for cross hands beside parallel hands (false).

### C197 Calibrations are kept by CASA tables

*Plan and model.* Proved for one Jones term and for two in the order of CASA. Partial since two Jones terms in the other order exchange their solutions: they are sorted when they are written, but their labels are not (`jones_counterexample`, for all objects).

*Status.* partial. Theorems: `Verif.MsCal.round_trip`, `Verif.MsCal.labels_agree`, `Verif.MsCal.channels_perm`, `Verif.MsCal.jones_counterexample`.

*Note.* Missing: two Jones terms that are not in the order of CASA (false).

### C198 Times, scans and reference antennas are kept by CASA tables

*Plan and model.* Proved.

*Status.* proved. Theorems: `Verif.MsCal.times_back`, `Verif.MsCal.ref_back`.

### C199 write_ms_cal keeps everything or refuses

*Plan and model.* The refusals are proved. Partial since an object with a total quality can never be written (`total_quality_counterexample`: an IndexError) and extra keywords are written but not read, apart from those of CASA (`extra_counterexample`, both for all objects).

*Status.* partial. Theorems: `Verif.MsCal.refused`, `Verif.MsCal.total_quality_counterexample`, `Verif.MsCal.extra_counterexample`.

*Note.* Missing: total qualities and extra keywords (false).

### C200 Rows of CASA tables are put at their times

*Plan and model.* Proved if different times are further apart than the tolerance. Partial since after a first pair of close times a second pair is put at a wrong time: the index that is taken counts close times as well. Reading then fails (`near_index_counterexample`, `near_read_counterexample`) or another time is overwritten without an error (`near_wrong_counterexample`), for all such times.

*Status.* partial. Theorems: `Verif.MsCal.near_times_partial`, `Verif.MsCal.near_index_counterexample`, `Verif.MsCal.near_read_counterexample`, `Verif.MsCal.near_wrong_counterexample`.

*Note.* Missing: several pairs of close times (false).

### C201 Files of FHD are told apart by polarization

*Plan and model.* Proved (`classify_iff`, `vis_read`, `vis_ok`, `vis_refused`, `vis_order`).

*Status.* proved. Theorems: `Verif.Fhd.classify_iff`, `Verif.Fhd.vis_read`, `Verif.Fhd.vis_ok`, `Verif.Fhd.vis_refused`, `Verif.Fhd.vis_order`.

### C202 Times, antennas and coordinates of FHD data

*Plan and model.* Proved.

*Status.* proved. Theorems: `Verif.Fhd.times_bins`, `Verif.Fhd.antOf_tile`, `Verif.Fhd.conj_uvw`.

### C203 Calibrations of FHD

*Plan and model.* Proved. Partial since the convention of polarizations is never set, as the attribute is misspelled (`convention_counterexample`, for all files).

*Status.* partial. Theorems: `Verif.Fhd.cal_read`, `Verif.Fhd.convention_counterexample`.

*Note.* Missing: the convention of polarizations (false).

### C204 UVCal.fast_concat is plain concatenation

*Plan and model.* Proved (`concat_values`, `concat_labels`, `concat_rest`) for objects that have the same parameters. Jones terms of spectral windows are C206.

*Status.* proved. Theorems: `Verif.CalConcat.concat_values`, `Verif.CalConcat.concat_labels`, `Verif.CalConcat.concat_rest`.

### C205 UVCal.fast_concat combines what belongs together and refuses the rest

*Plan and model.* Proved for refusals before parameters are compared (`refused_unchanged`), and for antennas, times, frequencies and Jones terms (C204, `concat_rest`). Partial since an object that does not match has the history of a combination afterwards (`history_counterexample`), and since windows, ranges of frequencies of wide-band objects and flexible Jones terms are not compared, so that objects of other windows are combined under those of the first (`windows_counterexample`; both for all objects).

*Status.* partial. Theorems: `Verif.CalConcat.refused_unchanged`, `Verif.CalConcat.concat_rest`, `Verif.CalConcat.history_counterexample`, `Verif.CalConcat.windows_counterexample`.

*Note.* Missing: the history of a refused object, and windows that are not compared (false).

### C206 Concatenated channels keep the Jones terms of their windows

*Plan and model.* Proved if the windows of all objects are disjoint and listed in the order of their channels. Partial since the list of windows is replaced before it is used to find their Jones terms: a window in two objects shifts the Jones terms of all later ones (`split_counterexample`) and windows listed in another order exchange them (`order_counterexample`), for all such objects.

*Status.* partial. Theorems: `Verif.CalConcat.flex_partial`, `Verif.CalConcat.split_counterexample`, `Verif.CalConcat.order_counterexample`.

*Note.* Missing: windows in several objects or in another order (false).

### C207 Solutions are found by antenna and Jones term

*Plan and model.* Proved.

*Status.* proved. Theorems: `Verif.CalGet.get_pair`, `Verif.CalGet.get_antenna`, `Verif.CalGet.get_refused`, `Verif.CalGet.times_center`, `Verif.CalGet.times_given`.

### C208 Parts of calibration files are what select would keep

*Plan and model.* Proved (`part_partial`, `part_succeeds_partial`) if the channels that are named exist and are counted from the beginning, spectral windows are different and all have channels. Partial since otherwise it is false: with all channels named, one of them from the end, and another axis selected, frequencies come in another order than gains (`from_end_counterexample`); with one more there are more frequencies than gains (`twice_counterexample`); in a file with one channel any channel number is accepted (`absent_channel_counterexample`); a window without channels is kept (`unused_window_counterexample`); without arrays a selection is ignored (`header_only_counterexample`, for all objects).

*Status.* partial. Theorems: `Verif.CalH5.part_partial`, `Verif.CalH5.part_succeeds_partial`, `Verif.CalH5.header_only_counterexample`, `Verif.CalH5.from_end_counterexample`, `Verif.CalH5.twice_counterexample`, `Verif.CalH5.absent_channel_counterexample`, `Verif.CalH5.unused_window_counterexample`.

*Note.* Missing: channels from the end or that do not exist, windows without channels, selections without arrays (false).

### C209 Headers of calibration files keep all parameters

*Plan and model.* Proved (`round_trip`) for objects that pass the checks. What does not come back: a catalog without entries makes a file that cannot be read (`empty_catalog_counterexample`), windows of channels of a wide-band object are lost (`wide_windows_counterexample`; both for all objects), and without times or ranges of times the file cannot be read (`no_times_counterexample`).

*Status.* proved. Theorems: `Verif.CalHead.round_trip`, `Verif.CalHead.empty_catalog_counterexample`, `Verif.CalHead.wide_windows_counterexample`, `Verif.CalHead.no_times_counterexample`.

*Note.* For objects that have their required parameters.

### C210 New calibration objects are accepted exactly if their arguments belong together, and are what was asked for

*Plan and model.* Proved: `accept` characterizes the arguments, `made` the object. Partial since one range of times without an integration time is always refused, though its length is known (`one_range_counterexample`: the axis is squeezed away), and since delays asked for with frequencies become gains and the array of delays is dropped without a word (`delay_channels_counterexample`; both for all arguments).

*Status.* partial. Theorems: `Verif.NewCal.accept`, `Verif.NewCal.made`, `Verif.NewCal.one_range_counterexample`, `Verif.NewCal.delay_channels_counterexample`.

*Note.* Missing: one range of times without integration time, delays for channels (false).

### C211 Calibrations made for visibilities fit these visibilities

*Plan and model.* Proved for times, antennas, channels, windows, telescopes and acceptance; for Jones terms (`vis_jones_partial`) if all polarizations are linear or all circular, and for diameters (`diameters_partial`) if the antennas of the telescope are in the order of their numbers. Partial since otherwise it is false: diameters are not sorted with the numbers (`diameters_counterexample`), and linear polarizations beside circular ones have no Jones terms (`mixed_counterexample`; both for all telescopes and polarizations). Windows that are given are not used for gains of channels (`vis_channels`), and antennas that do not exist are left out without a word (`vis_ants`).

*Status.* partial. Theorems: `Verif.NewCal.vis_times`, `Verif.NewCal.vis_ants`, `Verif.NewCal.vis_channels`, `Verif.NewCal.vis_windows`, `Verif.NewCal.vis_ranges`, `Verif.NewCal.vis_jones_partial`, `Verif.NewCal.jones_feeds`, `Verif.NewCal.vis_telescope`, `Verif.NewCal.antennas_part`, `Verif.NewCal.vis_succeeds`, `Verif.NewCal.diameters_partial`, `Verif.NewCal.diameters_counterexample`, `Verif.NewCal.mixed_counterexample`.

*Note.* Missing: diameters of unsorted antennas, mixed polarizations (false).

### C212 New beams are accepted exactly if their arguments belong together, and are what was asked for

*Plan and model.* Proved: `accept` characterizes the arguments, `made` the beam. Partial since arguments that belong together are refused: any coordinate system that is given for two axes, also the right one (`system_counterexample`: the attribute of the empty object is compared), power beams of cross polarizations without data (`cross_counterexample`: the zeros are real, the check wants complex ones), and names of polarizations with the directions of feeds though the orientation is given (`names_counterexample`; all for all arguments).

*Status.* partial. Theorems: `Verif.NewBeam.accept`, `Verif.NewBeam.made`, `Verif.NewBeam.system_counterexample`, `Verif.NewBeam.cross_counterexample`, `Verif.NewBeam.names_counterexample`.

*Note.* Missing: coordinate systems of axes, cross polarizations without data, names with directions (false).

### C213 Power beams of auto polarizations are real, and fixing them keeps their values

*Plan and model.* Proved: what is accepted (`auto_check`), that fixed beams are real and cross polarizations are kept (`auto_fixed`), that real values that are not negative are kept (`auto_keeps_partial`). Partial since values are replaced by their magnitudes: negative values, which Stokes parameters may have, change their sign as soon as any value of the beam is not real (`negative_counterexample`), and what replaces a value that is not real is never its real part (`magnitude_counterexample`; both for all beams).

*Status.* partial. Theorems: `Verif.NewBeam.auto_check`, `Verif.NewBeam.auto_fixed`, `Verif.NewBeam.auto_keeps_partial`, `Verif.NewBeam.negative_counterexample`, `Verif.NewBeam.magnitude_counterexample`.

*Note.* Missing: negative values and values that are not real (false).

### C214 Sidereal times belong to their times, and wrong ones are noticed

*Plan and model.* Proved (`erfa_times`, `astropy_times`, `novas_agrees`, `moon_library`, `warns_iff`). Partial: sidereal times on both sides of the end of a turn are said to be wrong however close they are (`wrap_counterexample`), novas does not work with location objects (`location_counterexample`), and the library for an EarthLocation is not the documented one (`default_counterexample`; all for all skies).

*Status.* partial. Theorems: `Verif.Lst.erfa_times`, `Verif.Lst.astropy_times`, `Verif.Lst.novas_agrees`, `Verif.Lst.moon_library`, `Verif.Lst.warns_iff`, `Verif.Lst.wrap_counterexample`, `Verif.Lst.location_counterexample`, `Verif.Lst.default_counterexample`.

*Note.* Missing: sidereal times at the end of a turn, novas with location objects (false).

### C215 MIR spectra become visibilities of their antennas, times, frequencies and polarizations

*Plan and model.* Proved (`placed_partial`, `unfilled_partial`, `window_ids`, `freq_even`, `rows_sorted`, `windows_sorted`, `pol_receivers`, `split_iff`) for polarizations that are tuned alike, or of which one has the code 1. Partial since otherwise polarizations that are tuned to different frequencies share their windows, and one overwrites the other (`codes_counterexample`: the data are those without the first spectrum); without flexible polarizations such data make objects that are refused (`flex_counterexample`); the number of baselines is right exactly if no pair of antennas is missing (`nbls_iff`; all for all records).

*Status.* partial. Theorems: `Verif.MirVis.placed_partial`, `Verif.MirVis.unfilled_partial`, `Verif.MirVis.window_ids`, `Verif.MirVis.freq_even`, `Verif.MirVis.rows_sorted`, `Verif.MirVis.windows_sorted`, `Verif.MirVis.pol_receivers`, `Verif.MirVis.split_iff`, `Verif.MirVis.codes_counterexample`, `Verif.MirVis.flex_counterexample`, `Verif.MirVis.nbls_iff`.

*Note.* Missing: polarizations tuned to different frequencies of which none has the code 1, data in which a pair of antennas is missing (false).

### C216 Sums of MIR tables have each record once, and the one that is used

*Plan and model.* Proved (`sum_partial`, `empty_sum`) without discard_flagged, and for tables with the same keys if they are sorted. Partial since otherwise wrong records are taken: of unsorted tables those that are not used, which are used from then on (`order_counterexample`: keys are sorted, masks are not), and with discard_flagged the mask of the first table is used for the second one (`discard_counterexample`), or there is an error (`index_counterexample`; all for all values).

*Status.* partial. Theorems: `Verif.MirAdd.sum_partial`, `Verif.MirAdd.empty_sum`, `Verif.MirAdd.order_counterexample`, `Verif.MirAdd.discard_counterexample`, `Verif.MirAdd.index_counterexample`.

*Note.* Missing: discard_flagged, unsorted tables with the same keys (false).

### C217 MIR data of different files are put together with their own spectra

*Plan and model.* Proved: keys (`keys_different`), refusal (`refused_iff`), loaded spectra if not in place (`loaded_partial`), places if no integration of the second object has a number of the sum (`places_partial`). Partial since this is false otherwise: positions of the second object are stored under its old numbers too, so spectra of the first one are read at positions of the second (`number_counterexample`) or cannot be read (`missing_counterexample`); in place, the scale is changed before it is compared, so data of different scales are put together (`inplace_counterexample`).

*Status.* partial. Theorems: `Verif.MirCat.keys_different`, `Verif.MirCat.places_partial`, `Verif.MirCat.loaded_partial`, `Verif.MirCat.refused_iff`, `Verif.MirCat.number_counterexample`, `Verif.MirCat.missing_counterexample`, `Verif.MirCat.inplace_counterexample`.

*Note.* Missing: integrations with numbers of both objects, and scales in place (false).

### C218 Values of MIR tables are read and set for the records that are asked for, and can be given back

*Plan and model.* Proved (`get_partial`, `get_all`, `get_keys`, `set_partial`, `set_keys`, `reset_restores`, `reset_named`). Partial since alternatives of records that are used are false: the mask is one of the alternatives, so all used records are read or changed whatever the conditions are, and unused ones that meet one (`or_counterexample`, for all tables). Documentation of and_where_args says that the mask is combined in this way, that of use_mask that only used records are considered.

*Status.* partial. Theorems: `Verif.MirGet.get_partial`, `Verif.MirGet.get_all`, `Verif.MirGet.get_keys`, `Verif.MirGet.set_partial`, `Verif.MirGet.set_keys`, `Verif.MirGet.reset_restores`, `Verif.MirGet.reset_named`, `Verif.MirGet.or_counterexample`.

*Note.* Missing: alternatives of used records (false).

### C219 Histories survive measurement sets

*Plan and model.* Proved if at most one line is before the table and entries have no semicolons (`trip_partial`; `write_lines`, `kept`: nothing is lost with more lines). Partial since lines before the table come back in reversed order (`order_counterexample`), after it if it has no rows (`empty_counterexample`), a history without a table gets an empty one in front (`plain_trip`, and stays so: `second_trip`), and a semicolon in an entry (`semicolon`) makes earlier rows come twice (`semicolon_counterexample`; all for all texts).

*Status.* partial. Theorems: `Verif.MsHist.trip_partial`, `Verif.MsHist.write_lines`, `Verif.MsHist.kept`, `Verif.MsHist.plain_trip`, `Verif.MsHist.second_trip`, `Verif.MsHist.order_counterexample`, `Verif.MsHist.empty_counterexample`, `Verif.MsHist.semicolon`, `Verif.MsHist.semicolon_counterexample`.

*Note.* Missing: several lines before the table, entries with semicolons (false).

### C220 Tracks have a row for each time and pair of antennas, with the position for this time

*Plan and model.* Proved for one position without epoch (`track_partial`, `rows_single`, `mem_pairs`, `pairs_nodup`, `row_fields`, `force_positive`) and for positions of rows with increasing times (`rows_partial`, `app_sorted_partial`). Partial since the epoch is not handed to calc_app_coords, though to the position angles (`epoch_counterexample`); positions given for times are an error with three antennas or more (`times_counterexample`); if times do not increase some row has the position of another row (`order_counterexample`), if a time is repeated there is an error (`app_repeated`), and rows of one time all have the first position (`one_time_counterexample`; all for all skies, times and positions). Sidereal sources only.

*Status.* partial. Theorems: `Verif.Track.track_partial`, `Verif.Track.rows_partial`, `Verif.Track.rows_single`, `Verif.Track.app_sorted_partial`, `Verif.Track.app_rank`, `Verif.Track.mem_pairs`, `Verif.Track.pairs_nodup`, `Verif.Track.row_fields`, `Verif.Track.force_positive`, `Verif.Track.epoch_counterexample`, `Verif.Track.times_counterexample`, `Verif.Track.order_counterexample`, `Verif.Track.app_repeated`, `Verif.Track.one_time_counterexample`.

*Note.* Missing: epochs, several positions unless the times of rows increase (false); sources that are not sidereal.

### C221 Rows of objects that are read, made or resampled have the apparent positions of their catalog entries

*Plan and model.* Proved for entries without velocity (`rows_set_partial`), with everything else that is stated (`angles_only`, `kept`, `missing_entry`, `succeeds`). Partial since velocities are looked up under a key that entries do not have ("vrad" instead of "cat_vrad"), so rows have the position of the source without velocity (`rows_set`), which is not the one that phase gives them whenever the velocity matters (`velocity_counterexample`, for all skies).

*Status.* partial. Theorems: `Verif.AppSet.rows_set_partial`, `Verif.AppSet.rows_set`, `Verif.AppSet.angles_only`, `Verif.AppSet.kept`, `Verif.AppSet.succeeds`, `Verif.AppSet.missing_entry`, `Verif.AppSet.velocity_counterexample`.

*Note.* Missing: sources with a velocity (false).

### C222 Resampling to a target time averages short rows and cuts long ones

*Plan and model.* Conditions and what is done are proved (`resample_nothing`, `resample_down`, `resample_up`, `resample_both`), as is that no row is longer than the target if anything is cut (`resample_short`). Time is conserved if no row or average is longer than the target by less than the tolerance (`resample_conserves_partial`; those are lost, as in C37). The claim about averaged rows is false if there are both kinds of rows: averages longer than the target are cut again, so all rows of a baseline whose integrations do not divide the target are shorter than the target (`both_counterexample`, for all such rows).

*Status.* partial. Theorems: `Verif.Resample.resample_nothing`, `Verif.Resample.resample_down`, `Verif.Resample.resample_up`, `Verif.Resample.resample_both`, `Verif.Resample.resample_short`, `Verif.Resample.resample_conserves_partial`, `Verif.Resample.both_counterexample`.

*Note.* Missing: averaged rows not shorter than the target if there are long rows too (false), rows longer than the target by less than the tolerance (lost).

### C223 Telescopes and antennas of Miriad files of other programs are where the file says

*Plan and model.* Proved but for one case. Positions: `absolute_kept`, `relative_kept`, `missing_zero`; antennas: `antennas`; errors (an antenna with visibilities that is not in the list of positions): `load_error`; locations: `location_altitude`, `location_known`, `location_sea`. The mean height is used if longitudes are at most half a turn (`location_mean_partial`). For longitudes between a half and a whole turn, which the reader takes care of with an altitude, the mean is never found to be at the coordinates of the file, so all such telescopes are at sea level (`wrapped_counterexample`).

*Status.* partial. Theorems: `Verif.MirLoc.absolute_kept`, `Verif.MirLoc.relative_kept`, `Verif.MirLoc.antennas`, `Verif.MirLoc.missing_zero`, `Verif.MirLoc.load_error`, `Verif.MirLoc.location_altitude`, `Verif.MirLoc.location_known`, `Verif.MirLoc.location_mean_partial`, `Verif.MirLoc.location_sea`, `Verif.MirLoc.wrapped_counterexample`.

*Note.* Missing: mean heights for longitudes between a half and a whole turn (false).

### C224 Combined objects have the names of all their files

*Plan and model.* Names: `all_names`; order of names: `two_ascending`, `one_kept`; order of objects: `order_irrelevant` and `groups`, for objects whose names are ascending (as those of single files and of combined objects are).

*Status.* proved. Theorems: `Verif.FileNames.all_names`, `Verif.FileNames.two_ascending`, `Verif.FileNames.one_kept`, `Verif.FileNames.order_irrelevant`, `Verif.FileNames.groups`, `Verif.FileNames.same_names`.

### C225 Stored masks of MIR objects are restored

*Plan and model.* Proved for sequences of steps that change masks (`restored_partial`, `save_spec`, `restore_unknown`). Partial since masks are kept when another file is read into the object, and are restored for tables with other rows (`read_counterexample`). They are to be cleared, but the line that does so is not reached if there was no table of auto-correlations (`read_clears` if there was).

*Status.* partial. Theorems: `Verif.MirMask.restored_partial`, `Verif.MirMask.save_spec`, `Verif.MirMask.restore_unknown`, `Verif.MirMask.read_clears`, `Verif.MirMask.read_counterexample`.

*Note.* Missing: masks stored before another file is read into the object (false).

### C226 Repaired positions of MIR integrations are those of the file

*Plan and model.* `fixed`, for different numbers in the object and in the file.

*Status.* proved. Theorems: `Verif.MirFix.fixed`.

### C227 Baseline coordinates of old MIR files become meters

*Plan and model.* Proved for baselines with coordinates that are not zero: `divided_partial`, `meters_partial`, `meters_kept`, with a proof that medians are what more than half of the values are (`median_majority`); errors: `convert_error`. Partial since a single baseline of two antennas in one place makes the factor of its receiver and sideband NaN, so all coordinates of these are lost (`zero_counterexample`).

*Status.* partial. Theorems: `Verif.MirUvw.divided_partial`, `Verif.MirUvw.meters_partial`, `Verif.MirUvw.meters_kept`, `Verif.MirUvw.median_majority`, `Verif.MirUvw.convert_error`, `Verif.MirUvw.zero_counterexample`.

*Note.* Missing: baselines with coordinates that are zero (false).

### C228 Online flags of MIR data are added to the flags there are

*Plan and model.* `apply_returns`, `apply_marked`, `apply_error`, `apply_twice`, for records loaded in any order, also with numbers that are used twice.

*Status.* proved. Theorems: `Verif.MirOnline.apply_returns`, `Verif.MirOnline.apply_marked`, `Verif.MirOnline.apply_error`, `Verif.MirOnline.apply_twice`.

### C229 Receivers of antennas in old MIR files follow from the codes, if they are not recorded

*Plan and model.* `fill_pol`, `fill_rec`, `fill_twice`. Receivers are kept if both antennas have one other than 0 somewhere (`fill_kept_partial`). Partial since those of antenna 1 are lost if antenna 2 has receiver 0 everywhere, though both were recorded (`fill_counterexample`).

*Status.* partial. Theorems: `Verif.MirOnline.fill_pol`, `Verif.MirOnline.fill_rec`, `Verif.MirOnline.fill_twice`, `Verif.MirOnline.fill_kept_partial`, `Verif.MirOnline.fill_counterexample`.

*Note.* Missing: files in which one antenna has receiver 0 everywhere (false).

### C230 Names of FHD files warn if and only if they are of different runs or data

*Plan and model.* `names`, `one_run_partial`, `two_runs`, `two_data_partial`, `missing_suffix`, `missing_sub`. Partial since the suffix is looked for from the start of the name: data whose name has the suffix of one type in it (such as m_vis1) give the warning that the files are for different data (`same_data_counterexample`). Paths have one `/` between folders, and the folder of the run is not the root.

*Status.* partial. Theorems: `Verif.FhdNames.names`, `Verif.FhdNames.one_run_partial`, `Verif.FhdNames.two_runs`, `Verif.FhdNames.two_data_partial`, `Verif.FhdNames.missing_suffix`, `Verif.FhdNames.missing_sub`, `Verif.FhdNames.same_data_counterexample`.

*Note.* Missing: data whose name has a suffix in it (false).

### C231 MIR records are matched by both of their numbers

*Plan and model.* `match_same` for types that are the same (also negative numbers), `match_antennas_partial` for antennas of different types and numbers that are not negative, `match_length`. Partial since a negative number of an antenna in types of different size is not found, and another antenna is taken in its place (`negative_counterexample`). This justifies comparing pairs in the model of selections (`MirSel`).

*Status.* partial. Theorems: `Verif.MirCipher.match_same`, `Verif.MirCipher.match_antennas_partial`, `Verif.MirCipher.match_length`, `Verif.MirCipher.negative_counterexample`.

*Note.* Missing: negative numbers of antennas in types of different size (false).

### C232 The history of FHD data is what their settings file says

*Plan and model.* `history_of`, `history_no_obs`, `history_error`. What a line begins with, how it is cleaned and its second word are parameters. Files whose line User is after ##OBS are not part of the claim.

*Status.* proved. Theorems: `Verif.FhdHist.history_of`, `Verif.FhdHist.history_no_obs`, `Verif.FhdHist.history_error`.

### C233 Codes of MIR data are looked up by number and by text

*Plan and model.* `codes_error`, `number_to_code`, `code_to_number_partial`, `codes_list`, `codes_dict`. Partial since two numbers with one text leave one of them without a way to find it by its text (`same_text_counterexample`).

*Status.* partial. Theorems: `Verif.MirCodes.codes_error`, `Verif.MirCodes.number_to_code`, `Verif.MirCodes.code_to_number_partial`, `Verif.MirCodes.codes_list`, `Verif.MirCodes.codes_dict`, `Verif.MirCodes.same_text_counterexample`.

*Note.* Missing: codes in which two numbers have one text (false).
