# Formal model of PFPE/shipgrav in Lean 4

## 1. What is modelled, and how

The Python package `shipgrav` (`/repo/shipgrav`) is modelled by hand, function by function, as total Lean functions.  Every
model definition cites the file and the lines it models.  Layout (`lean/Verif/`):

* `Py/…`     — the Python, numpy, scipy and pandas primitives that are used (string methods, slices, float and int parsing and printing,
  `np.unique`, `np.interp`, discrete Fourier transform, error function, calendar), written as explicit definitions.
* `Model/…`  — the code of `utils.py`, `nav.py`, `io.py`, `grav.py`, and (`Model/Scripts`, `Lowpass`, `Track`, `Serial`, `Kinematics`, `Envelope`, `Coherence`, `Pipeline`) the computations of the example scripts.
* `Spec/…`   — small independent specifications used in theorem statements.  They do not refer to the model.
* `Lemmas/…` — helper lemmas (no claims).
* `Props/…`  — the property theorems, `Cnn_…`, and at the end of each file examples that meet their hypotheses.

| module of the model | code |
|---|---|
| `Model/Gaussian` (in double precision `GaussianFloat`), `Status`, `Ini`, `Cursor` | `utils.py`: `gaussian_filter`, `decode_dgs_status_bits`, `clean_ini_to_toml`, `_SnappingCursor` |
| `Model/Nav` (in double precision `NavVelFloat`) | `nav.py`: all functions |
| `Model/NavParse`, `ReadNav`, and in double precision `NavFloat`, `CoordFloat`, `DateLineFloat` | `io.py`: `read_nav`, the navigation readers of all ships, `_navcoords`, `_clock_time`, `_clean_180cross` |
| `Model/Bgm` (in double precision `BgmFloat`) | `io.py`: `read_bgm_rgs`, `read_bgm_raw`, the readers of all ships, `_despike_bgm_serial` |
| `Model/Dgs` | `io.py`: `read_dgs_laptop`, `read_dgs_raw`, the readers of all ships |
| `Model/Other` | `io.py`: `read_other_stuff` |
| `Model/Database` | `database.toml`, and what `io.py` and the scripts take from it |
| `Model/Tide`, `Eotvos`, `LatCorr`, `CrossCoupling`, `Tilt` (in double precision `TideFloat`, `LatCorrFloat`, `EotvosFloat`, `TiltFloat`, `UpVecsFloat`) | `grav.py`: tide, Eötvös, latitude and free-air corrections, cross coupling, platform tilt |
| `Model/Parker1d` (in double precision `Parker1dFloat`), `Parker2d` (in double precision `Parker2dFloat` and `LayerFloat`), `Thermal` (in double precision `ThermalFloat`), `Crust` | `grav.py`: `grav1d_padded`, `grav2d_folding`, `grav2d_layer_variable_density`, the `therm_*` functions, `crustal_thickness_2D` |
| `Model/Scripts` | `example-scripts/`: synchronisation, dropouts, free-air anomaly, level error, cross-coupling correction, segments, RMBA |
| `Model/Lowpass`, `Track` | `example-scripts/`: low-pass filter and trimming (all scripts); extension of the line, embedding of the anomaly, even spacing (`RMBA_calc.py`) |
| in double precision `Model/FreeAirFloat`, `LowpassFloat`, `SyncFloat`, `FilesFloat` | `example-scripts/`: free-air anomaly; low-pass filter; positions at the times of the gravimeter, sorting and the chain of steps; from the lines of the files to the anomaly (`interactive_line_pick.py`) |
| `Model/Serial`, `Kinematics`, `Envelope`, `Coherence`, `Pipeline` | `example-scripts/`: clean-up and calibration (`dgs_raw_comp.py`); accelerations from positions (`dgs_ccp_calc.py`); series of the motion sensor and coherence (`mru_coherence.py`); sorting and the chain of steps to the free-air anomaly |

Exceptions are values (`Except PyErr α`); the `-999` sentinel is a value (`Ret.sentinel`).  Arrays changed in place (`up_vecs`,
`_clean_180cross`, `inds.pop()`) are returned beside the result.

### Numbers
* Finite floats are exact numbers: `ℚ` where only field arithmetic and comparison occur (readers, cursor, dropouts), `ℝ` where `sin`, `exp`, `sqrt`,
  `erf` occur, `ℂ` for Fourier transforms.  Rounding and overflow are outside, except in the next item.
* Double precision (`Py/Float64`) is modelled for the time stamps of `read_nav` and of the Ride (`Model/NavFloat`, `NavParse`), for positions (`Model/CoordFloat`), for the Gaussian
  filter (`Model/GaussianFloat`), for the tilt filter and the up vectors (`Model/TiltFloat`, `Model/UpVecsFloat`), for the latitude corrections (`Model/LatCorrFloat`), for the Eötvös correction (`Model/EotvosFloat`), for the tide (`Model/TideFloat`), for the free-air anomaly of the scripts (`Model/FreeAirFloat`), for the scaling of BGM counts (`Model/BgmFloat`), for the repair at the date line (`Model/DateLineFloat`; `fmod` is exact) for velocities, course and rotation (`Model/NavVelFloat`), for the thermal models (`Model/ThermalFloat`), for the low-pass filter of the scripts (`Model/LowpassFloat`), for the gravity of a profile, of a surface and of a layer (`Model/Parker1dFloat`, `Model/Parker2dFloat`, `Model/LayerFloat`) and for the positions at the times of the gravimeter (`Model/SyncFloat`; `timestamp()` of a time stamp is the double precision number nearest to its seconds), and compared there with the exact model: C87, C126–C128, C131–C136, C145, C146, C160–C162, C167, C169–C173; C138 puts the steps from the tables of the readers to the anomaly together, and C139 those from the lines of the files (`Model/FilesFloat`; the number parser of pandas is any function with a relative error of at most 2^-50, tables with missing values are left out).  Numbers have 53 binary digits and unlimited exponents, so
  overflow and underflow are outside; ties go to even.  `np.exp` is any function with a relative error of at most 2^-51;
  `np.tan` (on [-1, 1]), `np.sin` (on [-2, 2]), `np.sqrt` and `x**2` likewise, with at most 2^-51, 2^-51, 2^-52 and 2^-52; for C133 `np.sin`, `np.cos` and `np.arctan` (on [-4, 4]) have an absolute error of at most 2^-51; for C134, C135, C138, C139 and C168 so have `np.sin` and `np.cos` (on [-1e5, 1e5]), `np.arctan` (everywhere), `np.arcsin` and `np.arccos` (on [-1, 1]), and `x**3` has a relative error of at most 2^-52.  For C167 `np.sin` and `np.cos` (on [-7, 7]) have an absolute error of at most 2^-51, and sums and inner products of n ≤ 1000 terms one of at most (n+1)·2^-51 times the sum of the sizes of the terms (proved for summation from left to right; C168 smooths with the same).  For C160 `np.sin`, `np.cos`, `x**3` as there, `np.arctan2` has an absolute error of at most 2^-51, and an inner product of n terms in `np.convolve` one of at most (n+1)·2^-51 times the sum of the sizes of the products (proved for summation from left to right; it holds for any order).  For C161 `np.exp`, `np.sqrt` and `x**2` have relative errors of at most 2^-51, 2^-52 and 2^-52, `np.sin` (on [-1e5, 1e5]) and `erf` absolute ones of at most 2^-51, and `erfcinv` (on (0, 1]) one of at most 2^-50 times one plus its value; C162 assumes the same.  For C169 every entry of `np.fft.fft` of n numbers of at most M has an error of at most n·M·2^-45 and every entry of `np.fft.ifft` one of at most M·2^-45, `np.exp` and powers have relative errors of at most 2^-51, `np.sqrt` of at most 2^-52, and the sum of n numbers in `np.mean` an error of at most (n+1)·2^-51 times the sum of their sizes.  For C170 and C171 the same holds of `np.fft.fft2` and `np.fft.ifft2`, of powers up to the 20th, and the sum in `np.mean` has an error of at most 2^-46 times the sum of the sizes (pairwise summation).  For C172 `np.arctan` (everywhere) and `np.sin` and `np.cos` (on [-2, 2]) have an absolute error of at most 2^-51.  Fused multiply-add is outside.
* NaN is a value (`none`) where the code produces or tests it.  Infinite values leave the model where they could occur (said at the
  definition).
* Python `int` is `ℤ` or `ℕ` (unbounded, as in Python).

### Strings
`List Char`; digits, white space and letter case are those of ASCII.

## 2. Trusted base
* Lean 4.33.0's kernel, and Mathlib as shipped with it.
* Axioms: every theorem in MANIFEST.json depends on a subset of `propext`, `Classical.choice`, `Quot.sound` and on nothing else
  (`#print axioms`, all of them).  `Classical.choice` comes in with the real numbers and with Mathlib's tactics.  There is no `sorry`,
  no axiom of our own, no `native_decide` and no `bv_decide`.
* The reading of the Python source in `Model/`, and of the library primitives in `Py/`.  Both were written by hand from the source text and the
  documented behaviour of the libraries; the code has not been run.
* Library calls whose result is only characterised, not computed: `statsmodels` OLS (the theorems speak about every least-squares solution),
  `scipy.special.erf` and `erfcinv` (defined by the integral and as its inverse), `np.fft` (defined by the exponential sums).

## 3. What is not modelled
* In the library: progress bars, warnings and drawing.  The parsing of TOML by `tomli` (`Spec/TomlTables` reads the part of TOML that `database.toml` uses, and C164 shows
  that the tables of talkers and scale factors copied into the models are those of the file) and of YAML (`read_other_stuff` gets the parsed dictionaries).
* The file system: a file is its text or the list of its lines, and a written file is its text; for the clean-up of serial files it is a map from paths to
  texts (no directories, links, permissions or encodings).
* In the example scripts: downloads, plots and printing.  The geodesics of `geographiclib` are arbitrary functions.

## 4. Simplifications
* `clean_ini_to_toml`: what the operating system has flushed when an exception leaves the function is taken to be all lines written.
* `arctan2`: signed zeros are not distinguished.
* pandas: copy-on-write, dtype promotion and duplicate column names are left out unless a property is about them; `strptime` works on
  the fields of fixed formats, and other forms of dates are a parameter (`OtherTimes`, `Dates`) about which nothing is assumed; `csv` quoting is left out.
* Readers: what pandas does with floating DGS dates (a missing or broken stamp makes the whole column floating) is a parameter (`Dates`).
* `read_other_stuff`: of repeated column names the first one wins; the texts `nan` and `inf` become NaN.
* Instants are whole microseconds: the nanosecond that pandas can lose when it converts floating seconds is not modelled (it does not reach
  `timestamp()`, which rounds to microseconds).
* `_clean_180cross`: infinite coordinates are not told from NaN.
* Tide: UTC time stamps, one altitude for all points (an array of altitudes in `Model/TideAlt`); a point where numpy would divide by zero or leave a domain has no value at all.
* Eötvös: arrays of unequal length raise (one broadcasting case is left out), `a = 0` is left out.
* Cross coupling: `np.convolve(…, 'same')` for series of 11 samples or more, which all stretches have.
* Tilt, Parker: broadcasting of arrays of length one is left out; `dx = 0` and profiles of a single point are left out of the claims that divide.
* Thermal: infinite ages and depths count as no value; `zL0 ≠ 0`; one isotherm per call of `therm_Z_halfspace`.
* Crust: scalars are Python floats, so a division by zero raises.
* Scripts: columns of one table have equal length; the `interp1d` of positions gets at least two increasing times; an extension of infinite length is a `ValueError`;
  `np.interp` gets increasing times; TOML tables are looked up in the list of statements of the document;
  `coherence` gets two series of the same length; rows with the same time keep their order when sorted (pandas leaves it open).

## 5. Where code and documentation disagree
Each of these is a theorem named `…_refuted` (or a theorem that says what happens instead), beside the part that does hold.

* `gaussian_filter`: the centre weight is below its neighbours (C05); the delay is ⌊fl/2⌋ samples and not `fl` as the docstring says (C04).
* `clean_ini_to_toml`: comments after unquoted strings are dropped (C13); the file written can be unreadable or say something else when a
  number has no digit before the point, a key or text contains `TRUE` or `FALSE`, or a text contains `=` or a backslash (C108).
* `_SnappingCursor`: the cross-hair takes the first point at or after the mouse, not the closest (C16).
* `_clock_time`: 0.50 s is read as 0.05 s and the like (C24); Thompson stamps drop the fraction (C26); fixes can change order (C25); logger date and clock around midnight give
  stamps a day off (C26).
* `read_nav`: the argument `sampling` has no effect (C30).
* `_navdate_Ride`: stamps of the Sikuliaq are a microsecond early for some fractions of four digits or more, because a product is cut and not rounded (C87).
* `_despike_bgm_serial`: a single spike stays (C39).
* `read_other_stuff`: the last line is lost (C45); an empty first field shifts the others (C46).
* `calc_cross_coupling_coefficients`: everything after the last gap is left out (C59).
* `grav1d_padded`: wrong upper wavenumbers for odd lengths (C69); result depends on the vertical datum (C98), and so does its response to small relief (C155).
* `grav2d_layer_variable_density`: one wrong bin (C73).
* `therm_plate`: hotter than the mantle near zero age (C78); subsidence with fewer terms than the temperatures beside it (C125); with the default values 190–200 m of subsidence at age 0, where there is none (C156).
* `crustal_thickness_2D`: recovered gravity shifted by a sample (C81), thickness in reversed order with `back=True` (C82), wavenumbers of the bin before (C84), complex
  result (C96).
* Example scripts: level error with components exchanged (C101), dropout removal (C103), level error two samples late in the fit and not corrected for (C105), last
  row of each segment missing (C106), end effects of the filter in the last 239 samples that are kept (C110), cleaned serial files that are not
  brought up to date (C115), Eötvös correction too large on both sides of a gap in the readings (C120).

## 6. Property by property

Theorem names are in MANIFEST.json; every name begins with the number of its property.

- **C01** (gaussian_filter is a causal moving weighted sum) — proved; `Props/Gaussian.lean`: ring buffer as a fold over the list; invariant: the buffer is the last L samples of the zero-padded prefix.
- **C02** (gaussian_filter weights form a symmetric averaging kernel) — proved; `Props/Gaussian.lean`: weights as explicit lists over ℝ; positivity/normalisation, convexity bound.
- **C03** (gaussian_filter is linear and time-invariant) — proved; `Props/Gaussian.lean`: corollary of the closed form of C01.
- **C04** (gaussian_filter delays a signal by a known amount) — proved; `Props/Gaussian.lean`: symmetry of the kernel + closed form; refutation of the docstring's shift.
- **C05** (gaussian kernel is bell shaped) — partial; `Props/Gaussian.lean`: refuted: centre tap < neighbour for every fl ≥ 2; `_partial`: non-increasing from the first neighbour outwards. The claim is false: for every fl >= 2 the centre weight is strictly below its neighbours (C05_centre_is_not_the_peak). Proved part: strictly decreasing from the first neighbour outwards.
- **C06** (DGS status word decode is exact for 16-bit words) — proved; `Props/Status.lean`: format(_,'016b') modelled digit by digit; identified with Nat.testBit.
- **C07** (DGS status decode outside 16 bits) — proved; `Props/Status.lean`: same model, out-of-range branch.
- **C08** (DGS status decode of a DataFrame) — proved; `Props/Status.lean`: frame = ordered list of named columns; `insert` modelled with pandas' duplicate check.
- **C09** (clean_ini_to_toml output path) — proved; `Props/Ini.lean`: rstrip of a character set over List Char.
- **C10** (clean_ini_to_toml writes one output line per input line) — proved; `Props/Ini.lean`: line by line; re.sub of literals and float() modelled on List Char.
- **C11** (clean_ini_to_toml failure) — proved; `Props/Ini.lean`: writer state (lines written so far, error) .
- **C12** (clean_ini_to_toml is idempotent) — proved; `Props/Ini.lean`: line-level idempotence + global substitutions idempotent.
- **C13** (clean_ini_to_toml keeps trailing comments) — partial; `Props/Ini.lean`: refuted with a witness; general theorem: the comment is always dropped; `_partial`: kept for non-requoted lines. The claim is false: the comment after an unquoted string is always dropped (C13_comment_always_dropped, C13_refuted). Proved part: comments survive on lines that are not requoted.
- **C14** (line picker behaves as a stack of picks) — proved; `Props/Cursor.lean`: event state machine, refinement to a stack by induction over the history.
- **C15** (picked points are nearest data points) — proved; `Props/Cursor.lean`: argmin model with first-minimum spec, invariant over histories.
- **C16** (hovering snaps the cross-hair to the closest point) — partial; `Props/Cursor.lean`: refuted; `_partial`: snaps to the first point at or after the mouse (last point if none). The claim is false: the cross-hair snaps to the first point at or after the mouse (C16_not_closest). Proved part: exactly that behaviour, for all histories.
- **C17** (latlon_to_EN shape and edge masking) — proved; `Props/Nav.lean`: arrays as List; NaN as none.
- **C18** (latlon_to_EN differentiates polynomial tracks exactly) — proved; `Props/Nav.lean`: tay10 moments of degree 0..10 over ℝ, by polynomial arithmetic.
- **C19** (latlon_to_EN invariances) — proved; `Props/Nav.lean`: closed form of the 'same' convolution.
- **C20** (ENvel_to_course_heading is an exact polar decomposition) — proved; `Props/Nav.lean`: arctan2 := Complex.arg (vn + i ve).
- **C21** (rotate_acceleration_EN_to_cl is a rotation) — proved; `Props/Nav.lean`: trigonometric identities.
- **C22** (GGA coordinates decode exactly) — proved; `Props/NavParse.lean`: parser on List Char; parse ∘ format.
- **C23** (one position per talker line, dropouts become NaN) — proved; `Props/NavBroken.lean`, `Props/NavParse.lean`: filter lemma.
- **C24** (GGA clock time decodes to the true time of day) — partial; `Props/NavParse.lean`: refuted by witness; exact iff-characterisation of the fractions decoded correctly (up to 13 decimals). The seconds go through double precision and their shortest decimal (Py/Repr), for which reading back is proved. The claim is false for fractions whose canonical decimal form does not have exactly two digits (C24_half_second_refuted; C24_fraction_correct_iff_partial gives the exact condition). Proved part: whole seconds and two-digit fractions, and what is returned for every other fraction.
- **C25** (fixes keep their order in time) — partial; `Props/ReadNav.lean`: refuted with concrete files; `_partial`. The claim is false: C24's misread fractions and C26's midnight shift can swap fixes (C25_order_lost_refuted, C25_midnight_refuted). Proved part: fixes whose assigned timestamps increase keep their order and none is lost.
- **C26** (timestamps combine logger date and GGA clock) — proved; `Props/NavDate.lean`: calendar model + clock.
- **C27** (Revelle fixes take the nearest preceding date) — proved; `Props/NavDate.lean`, `Props/ReadNav.lean`: backward scan = last matching line in the gap.
- **C28** (read_nav times are strictly increasing) — proved; `Props/ReadNav.lean`: np.unique model sorted + first-occurrence.
- **C29** (read_nav loses and invents no fixes) — proved; `Props/ReadNav.lean`: np.interp at a knot returns the knot value; unique completeness.
- **C30** (read_nav resamples to the requested rate) — partial; `Props/ReadNav.lean`: refuted: output independent of `sampling`. The claim is false: any two nonzero sampling arguments give the same result (C30_sampling_ignored_refuted); C30_witness_refuted is a concrete track that is not resampled. C29 states what is returned instead: the original epochs.
- **C31** (read_nav decimation) — proved; `Props/ReadNav.lean`: strided slice model.
- **C32** (read_nav rejects what it cannot read with -999) — proved; `Props/ReadNav.lean`: decision logic over the database table.
- **C33** (date-line crossings become continuous) — proved; `Props/DateLine.lean`, `Props/ReadNav.lean`: floor-mod arithmetic over ℚ.
- **C34** (date-line repair is safe) — proved; `Props/DateLine.lean`: index-bounds invariant of the pair loop.
- **C35** (calendar conversion is order-preserving) — proved; `Props/Calendar.lean`: CPython's ymd2ord; monotone on valid dates.
- **C36** (BGM raw read scales counts row by row) — proved; `Props/Bgm.lean`: frame as list of rows.
- **C37** (BGM raw read dispatch) — proved; `Props/Bgm.lean`: decision logic.
- **C38** (despike only removes rows) — proved; `Props/Despike.lean`: sublist lemma.
- **C39** (despike removes isolated spikes) — partial; `Props/Despike.lean`: spike model; single-spike refutation. The claim is false for a single spike: two jumps or fewer are never acted on (C39_single_spike_kept_refuted). Proved part: two or more isolated spikes are removed, and nothing else.
- **C40** (Langseth laptop lines are kept iff they have 26 fields) — proved; `Props/DgsLaptop.lean`: line filter on List Char.
- **C41** (DGS reads concatenate) — proved; `Props/DgsLaptop.lean`, `Props/DgsRaw.lean`: concat homomorphism.
- **C42** (raw cross-coupling scaling) — proved; `Props/DgsRaw.lean`: column map.
- **C43** (raw timestamp handling) — proved; `Props/DgsRaw.lean`: decision logic.
- **C44** (Sikuliaq raw extraction) — proved; `Props/DgsRaw.lean`: regex as comma-field matcher.
- **C45** (read_other_stuff returns every tagged line) — partial; `Props/Other.lean`: loop over readline/tell; refuted for last line; `_partial` for all other lines. The claim is false: the last line of the file is never returned (C45_last_line_lost: whenever it is tagged there is one row too few). Proved part: one row for every tagged line before the last one.
- **C46** (read_other_stuff field mapping) — partial; `Props/Other.lean`: split/zip model. The claim is false for lines whose first field is empty: their fields shift left (C46_empty_first_field_refuted). Proved part: the field mapping for all files whose tagged lines have a first field, the optional dollar sign, absent tags, and the numeric conversion.
- **C47** (tide time arguments) — proved; `Props/Tide.lean`: rational arithmetic on datetime fields.
- **C48** (tide components add up) — proved; `Props/Tide.lean`: definitional sum over ℝ plus per-point map.
- **C49** (tide depends on longitude modulo 360) — proved; `Props/Tide.lean`: 2π-periodicity.
- **C50** (tide is always well defined) — proved; `Props/Tide.lean`: spherical-trigonometry identities and irrationality of π.
- **C51** (tide is physically bounded) — proved; `Props/Tide.lean`: unit-vector bounds and interval estimates.
- **C52** (Eotvos correction vanishes at rest) — proved; `Props/Eotvos.lean`: vector algebra over ℝ.
- **C53** (Eotvos correction for motion along a parallel) — proved; `Props/Eotvos.lean`: vector algebra.
- **C54** (Eotvos invariances and shape) — proved; `Props/Eotvos.lean`: vector algebra + list shape.
- **C55** (Eotvos vertical component ignores the wdot typo) — proved; `Props/Eotvos.lean`: parametrise the first wdot component.
- **C56** (center_diff exactness) — proved; `Props/Eotvos.lean`: polynomial identities.
- **C57** (WGS84 normal gravity) — proved; `Props/LatCorr.lean`: monotone in sin².
- **C58** (second-order free-air correction) — proved; `Props/LatCorr.lean`: real arithmetic.
- **C59** (cross-coupling uses every continuous segment) — partial; `Props/CrossCoupling.lean`: refuted with witness; general theorem: nothing after the last gap matters; `_partial` for earlier segments. The claim is false: when there is a gap, everything after the last gap is left out (C59_after_last_gap_ignored), so a record whose only long stretch is the last one raises (C59_last_stretch_refuted); each stretch also loses its last sample, so 1001 are needed. Proved part: stretches between gaps contribute, and without gaps all samples do.
- **C60** (cross-coupling regression table size) — proved; `Props/CrossCoupling.lean`: length arithmetic.
- **C61** (cross-coupling table ignores linear trends) — proved; `Props/CrossCoupling.lean`: moments of tay10 + linearity of FIR.
- **C62** (cross-coupling coefficients are recovered exactly) — proved; `Props/CrossCoupling.lean`: least squares as minimiser of the residual norm; statsmodels trusted to return one.
- **C63** (up vectors are unit vectors) — proved; `Props/Tilt.lean`: rotation algebra.
- **C64** (no acceleration means level platform) — proved; `Props/Tilt.lean`: lfilter of zero is zero.
- **C65** (tilt filter is stable) — proved; `Props/Tilt.lean`: real and imaginary part of the characteristic equation; both roots inside the unit circle bound the recursion.
- **C66** (up_vecs overwrites its acceleration arguments) — proved; `Props/Tilt.lean`: model returns mutated arrays.
- **C67** (zero damping is replaced by the default) — proved; `Props/Tilt.lean`: branch.
- **C68** (grav1d_padded: flat topography and linearity) — proved; `Props/Parker1d.lean`: DFT as explicit exponential sum.
- **C69** (grav1d_padded wavenumbers match the DFT) — partial; `Props/Parker1d.lean`: refuted for odd n; proved for even n incl. Hermitian symmetry. The claim is false for profiles with an odd number of points: the upper bins get a wavenumber one too high (C69_odd_refuted). Proved part: for even lengths the wavenumbers are those of the DFT and the inverse transform is real.
- **C70** (grav2d_folding: grids and folding) — proved; `Props/Parker2d.lean`: length arithmetic of the wavenumber vectors.
- **C71** (grav2d_folding: physics invariants) — proved; `Props/Parker2d.lean`: DFT symmetry.
- **C72** (variable-density layer: linearity and additivity) — proved; `Props/Layer.lean`: DFT linearity.
- **C73** (variable-density layer wavenumbers match the DFT) — partial; `Props/Layer.lean`: refuted at bin ⌊n/2⌋+1; `_partial` elsewhere. The claim is false for every size from 3 on: bin n//2+1 gets a positive frequency that is too large (C73_refuted), which changes the anomaly (C73_effect_refuted). Proved part: all other bins are right.
- **C74** (half-space temperature is physical) — proved; `Props/Halfspace.lean`: erf as integral of exp(-t²).
- **C75** (isotherm depth inverts the half-space model) — proved; `Props/Halfspace.lean`: erfcinv constructed as the inverse of the strictly monotone erfc.
- **C76** (age and distance inputs agree) — proved; `Props/Halfspace.lean`: algebra.
- **C77** (plate temperature boundary conditions) — proved; `Props/Plate.lean`: sin(nπ)=0.
- **C78** (plate temperature never exceeds the mantle temperature) — partial; `Props/Plate.lean`: refuted in the middle of young plates; decay estimates for the rest. The claim is false near zero age: ten terms overshoot, and the middle of every young enough plate is hotter than the mantle (C78_young_plate_refuted). Proved part: never negative at any age and depth, and never above Tm once the slowest term has decayed to 9/20.
- **C79** (plate subsidence) — proved; `Props/Plate.lean`: monotone exponentials, π bounds.
- **C80** (plate isotherm depth is the nearest grid node) — proved; `Props/Plate.lean`: argmin.
- **C81** (crustal_thickness_2D recovers gravity) — partial; `Props/Crust.lean`: double DFT = index reversal; refuted, exact shift theorem. The claim is false for every length from 2 on (C81_refuted: a spike at the first point is recovered at the last). Proved part: with a taper that passes all wavenumbers the recovered gravity is the input shifted by one sample along each axis, around the ends.
- **C82** (crustal_thickness_2D orientation) — partial; `Props/Crust.lean`: refuted; exact reversal theorem. The claim is false for every length from 2 on (C82_refuted). Proved part: for all arguments the thickness with back=True is the thickness with back=False in reversed order.
- **C83** (crustal_thickness_2D ignores the mean and is linear) — proved; `Props/Crust.lean`: linearity.
- **C84** (crustal_thickness_2D wavenumbers match the DFT) — partial; `Props/Crust.lean`: refuted; exact bin map. The claim is false: every bin gets the wavenumber of the bin before (bin 0 that of one cycle), which is its own only for the bin just after the middle of an odd number (C84_right_iff); the effect is shown for every length from 3 on (C84_effect_refuted). Proved part: the value of the thickness with the wavenumbers that are used.
- **C85** (read_bgm_rgs dispatch and columns) — proved; `Props/Bgm.lean`: decision logic + column pick.
- **C86** (Langseth fixes carry the logger's own stamp) — proved; `Props/NavStamp.lean`: parser of the stamp on characters, inverse of a formatter; calendar model.
- **C87** (Ride and Sikuliaq fixes carry the logger's own stamp) — partial; `Props/NavStamp.lean`: parsers of the two Ride formats (POSIX seconds, ISO) on characters, inverses of formatters; rounding to double precision bounded. The ISO part is false: int(float('.'+f)*1e6) loses a microsecond for some fractions, '.0157' gives 15699 (C87_iso_refuted). Proved: never more than one microsecond early and never late (fractions up to nine digits); exact for whole milliseconds written with up to three digits.
- **C88** (laptop readers pick the documented columns and build the instants) — proved; `Props/DgsLaptop.lean`: records made of numerals at given positions; the reader returns these numbers and the instants.
- **C89** (Thompson raw stamps) — proved; `Props/DgsRaw.lean`: records made of a date, a clock time and numerals; the reader returns them and the instants.
- **C90** (tide uses the true zenith angles of moon and sun) — proved; `Props/Tide.lean`: the code's spherical trigonometry is identified with scalar products of unit vectors built by rotations (Spec/Tide).
- **C91** (cross-coupling smoothing is an average) — proved; `Props/CrossCoupling.lean`: firwin is identified with a tapered, normalised sinc whose weights are shown to be non-negative.
- **C92** (up vectors are the tilted vertical) — proved; `Props/Tilt.lean`: lfilter state machine = difference equation, by induction; rotation of (0,0,1) by arctan angles in closed form.
- **C93** (platform tilt is causal) — proved; `Props/Tilt.lean`: prefix stability of the recursion.
- **C94** (half-space temperature solves the heat equation) — proved; `Props/Halfspace.lean`: HasDerivAt of the error function twice in depth and once in age; limits by squeezing.
- **C95** (plate temperature solves the heat equation) — proved; `Props/Plate.lean`: term by term derivatives of the ten exponentials; exponential decay.
- **C96** (crustal thickness is real) — partial; `Props/Crust.lean`: refuted with a spike: the continuation factors of opposite bins differ in size. The claim is false for every length from 3 on and every positive depth (C96_refuted). Proved part: without continuation, and with a taper that passes all wavenumbers, the thickness is real.
- **C97** (the marker on the map follows the cross-hair) — proved; `Props/Cursor.lean`: event state machine; argmin as in C15.
- **C98** (the anomaly of a profile does not depend on the vertical datum) — partial; `Props/Datum.lean`: closed form of C68; refuted with a step profile and a monotonicity argument. The claim is false: powers of the topography are taken about the zero level and not about the mean (C98_datum_refuted: the anomaly over a step grows with the shift). Proved part: profiles of mean zero; the origin of the distances does not matter.
- **C99** (the anomaly of a surface does not depend on the vertical datum) — proved; `Props/Datum.lean`: algebra on the model: only deviations from the mean enter.
- **C100** (accelerations along the track) — proved; `Props/Along.lean`: polar decomposition of C20 and derivatives of s*sin(phi), s*cos(phi).
- **C101** (level error of the platform) — partial; `Props/LevelError.lean`: up vectors of C92 inserted into the script's formula; refuted at the first sample because the filter's first coefficient is not zero. The claim is false: the script projects the long acceleration with the cross component and the cross acceleration with the long component (C101_refuted: with cross acceleration only, its projection is missing). Proved part: the value that is computed, and that it is zero without accelerations; a number for on_off acts like an array of it.
- **C102** (positions at the times of the gravimeter) — proved; `Props/Sync.lean`: searchsorted on increasing times counts a prefix; straight-line algebra.
- **C103** (dropouts in the navigation are removed) — partial; `Props/Sync.lean`: np.where/np.diff/drop as filters over indices; refuted by evaluation of two small tables; the proved part is by cases on neighbours. The claim is false: of two dropouts in a row one stays (C103_consecutive_refuted), and in western longitudes a dropout that reads zero stays while the good row before it is removed (C103_west_refuted). Proved part: which rows are kept, and the claim for dropouts that stand alone and read west of the track.
- **C104** (free-air anomaly of the example scripts) — proved; `Props/FreeAir.lean`: composition of C54, C57, C58, C48, C50, C51.
- **C105** (the cross-coupling correction removes the monitors) — partial; `Props/LevelError.lean`: the two-row offset is carried through calc_cross_coupling_coefficients; then C62. The claim is false for the level error, which is two samples behind in the regression and is not corrected for (C105_level_coefficient_refuted). Proved part: the claim for the other four monitors, with the level error counted two samples back.
- **C106** (segments between picks) — partial; `Props/Segments.lean`: list algebra; C15 for the bounds; uniqueness of splitting for file names. The claim is false for the later pick, which is not among the rows written (C106_end_refuted). Proved part: pairs, order, bounds, rows and file names.
- **C107** (residual mantle Bouguer anomaly) — proved; `Props/Bouguer.lean`: composition of C68 and of the isotherm depths; induction over the loop of isotherms; telescoping contrasts.
- **C108** (a converted ini file says the same) — partial; `Props/Toml.lean`: a small reader for TOML lines as specification; refuted with witnesses, proved for well-behaved lines. The claim is false for numbers that Python reads and TOML does not (.5), keys and texts with TRUE or FALSE in them, unquoted texts with = (cut there) and backslashes (C108_*_refuted). Proved part: the claim for all files whose lines have none of these.
- **C109** (smoothing of the free-air anomaly) — proved; `Props/Lowpass.lean`: `lfilter` with its state, `lfilter_zi` and odd extension are modelled; two passes equal a double sum over the continued series; the weights from `firwin` are shown to have sum one and symmetry.
- **C110** (trimmed anomalies are free of end effects) — partial; `Props/Lowpass.lean`: the double sum reaches 479 samples to both sides; a witness (one sample more) for the end of the series. The claim holds for `[taps:-taps]` (C110_track_trim) and is false for `[taps:-taps//2]` at the end of the series (C110_plot_trim_refuted). Proved part for the latter: all kept samples but the last 239.
- **C111** (extension of a line beyond its ends) — proved; `Props/Track.lean`: the mean of the differences telescopes; floor inequalities; positions in the appended lists.
- **C112** (smoothed anomaly put into the tracked line) — proved; `Props/Track.lean`: rows of the label slice counted; position by position.
- **C113** (line at even spacing) — proved; `Props/Track.lean`: sorted permutation of the nodes, counting search, neighbours have no node between them.
- **C114** (motion-sensor series at the times of the gravimeter) — proved; `Props/Envelope.lean`: membership in the window of the last 1000 entries; counting search in `np.interp`; case distinction where the time lies.
- **C115** (clean-up of serial files) — proved; `Props/Serial.lean`: files are a map from paths to texts; induction over the list of paths with the invariants: existing files stay, only cleaned paths change.
- **C116** (calibration of the raw channels) — proved; `Props/Serial.lean`: channel by channel on the table (set/get of columns); TOML look-up by position of the table; end to end with the theorem on converted ini files (C108).
- **C117** (accelerations of the ship from its positions) — proved; `Props/Kinematics.lean`: composition of the theorems on `latlon_to_EN`, the stencil and the rotation (C17–C21) with the propagation of NaN through the convolution.
- **C118** (coherence of motion sensor and monitors) — proved; `Props/Coherence.lean`: the spectral estimate is reduced to sums over segments; Cauchy–Schwarz; linearity of the windowed transform in the series less its mean.
- **C119** (from unsorted tables to the free-air anomaly) — proved; `Props/Pipeline.lean`: sorting by distinct keys has one result; composition of the theorems on interpolation (C102) and anomaly (C104).
- **C120** (correction for motion where readings are missing) — partial; `Props/Pipeline.lean`: composition as in C119; the correction along a parallel grows with speed (C53). The claim is false: readings are taken to be evenly spaced, so on either side of a gap the speed is overestimated and the anomaly is too high for a ship that goes east (C120_gap_refuted). Proved part: what correction is used for any pattern of times, and the claim for evenly spaced readings.
- **C121** (gravity series against the columns of rock) — proved; `Props/Columns.lean`: the exponential series of the column integral with an explicit rest; the code's terms identified with it by linearity of the transform.
- **C122** (Eötvös correction as inertial acceleration) — proved; `Props/Inertial.lean`: the position in space is differentiated twice; the difference to the formula is expanded in the flattening and bounded.
- **C123** (answer of the platform to swell) — proved; `Props/Swell.lean`: the recursion is linear with both roots inside the unit circle; the sinusoidal solution is explicit and the difference to it goes to zero.
- **C124** (half-space: subsidence from the temperatures) — proved; `Props/Isostasy.lean`: erfc is bounded by exp(-y^2)/(y sqrt(pi)); the integral of erfc from an explicit antiderivative.
- **C125** (plate: subsidence from the temperatures) — partial; `Props/Isostasy.lean`: sines integrated over the plate; what the three terms leave out. The claim is false: the temperature has ten terms, of which 1, 3, 5, 7, 9 contribute to the contraction, the subsidence has only 1, 3, 5, so it is too large at every age (C125_refuted). Proved part: the exact difference, and that it is at most 1.4 % of the scale and goes down with exp(-49 pi^2 k t / L^2).
- **C126** (track times in double precision) — proved; `Props/NavFloat.lean`: rounding is strictly monotone on microseconds within 2^33 seconds of 1970, so sorting, de-duplication and interpolation at the knots commute with it; `fromtimestamp` inverts it.
- **C127** (positions in double precision) — proved; `Props/CoordFloat.lean`: relative error of the three roundings of int + float/60, and the bound on three-character integers.
- **C128** (Gaussian filter in double precision) — proved; `Props/GaussianFloat.lean`: every rounding is a factor between exp(-2^-52) and exp(2^-52); the factors of a term multiply; the weights are positive and sum to one.
- **C129** (order and splitting of navigation files do not matter) — proved; `Props/NavFiles.lean`: the readers are homomorphisms for concatenation of lines; the track is determined by the set of fixes (strictly sorted, same members); longitudes are determined by the track.
- **C130** (a series of meter files is the same as one file) — partial; `Props/MeterFiles.lean`: each file alone gives the columns of its records (C36, C40, C43, C44, C85, C88, C89); concatenation of tables of one shape is concatenation of columns. False for DGS raw files whose clock is synchronised part-way: the first record alone decides, so the file read in one piece has no date_time at all while the files it can be cut into have it (C130_raw_refuted, for every such file). Proved for BGM, RGS, laptop files (common format, Thompson, Sikuliaq with their headers, Langseth with any other lines), raw files of Thompson and Sikuliaq, and other raw files with the clock synchronised throughout.
- **C131** (rounding errors of the tilt filter do not accumulate) — proved; `Props/TiltFloat.lean`: relative errors through `_tilt_filter` give coefficients within 350 units of 2^-52; the residual of the exact difference equation is bounded sample by sample, and the poles (modulus at most 1 - s) bound the answer to it; bootstrap by induction over the samples.
- **C132** (latitude corrections in double precision) — proved; `Props/LatFloat.lean`: absolute errors from the conversion to radians through sine and square; then relative errors through quotient, square root and product (normal gravity) and absolute ones through the polynomial in height (free air).
- **C133** (Eötvös correction in double precision) — proved; `Props/EotvosFloat.lean`: the formula is written once for every arithmetic; in an arithmetic of bounds (size, error) every operation is shown to bound the rounded one, so that the bounds computed for the whole formula hold; they are evaluated by the kernel.
- **C134** (Tide prediction in double precision) — proved; `Props/TideFloat.lean`: the formula is written once for every arithmetic; intervals with error bounds are carried through every operation and checked by the kernel. The result is compared with the exact formula for the computed longitude of the node, on which the exact tide depends smoothly; that no whole second comes closer than 3e-11 radians to the crossing follows from eleven brackets and the digits of pi.
- **C135** (Free-air anomaly of the scripts in double precision) — proved; `Props/FreeAirFloat.lean`: the bounds of C132, C133 and C134 are combined in the arithmetic of bounds, with the rounding of the three sums.
- **C136** (Positions at the times of the gravimeter in double precision) — proved; `Props/SyncFloat.lean`: the rounded search picks the right pair because rounding keeps the order of different microseconds; the shift of the three times is a convex combination of their errors; relative errors of the five roundings are multiplied.
- **C137** (Sensitivity of the free-air anomaly to errors of position) — proved; `Props/Sensitivity.lean`: perturbation bounds are carried through the formulas for normal gravity, lunar and solar tide and Eötvös correction; the bound is nearly attained by errors of longitude of opposite sign before and after a sample on the equator.
- **C138** (Tables of the readers to free-air anomaly in double precision) — proved; `Props/PipelineFloat.lean`: rows are sorted into the given order (unique, as instants differ and rounding keeps their order); C136 bounds the error of positions, C137 what it does to the exact anomaly, C135 the rounding of the corrections.
- **C139** (Text files of the Ride to free-air anomaly in double precision) — proved; `Props/FilesFloat.lean`: per line, C87 gives the instant and C127 the position to 2^-39 degrees; C146 turns the files into sorted rows; C88 and C130 read the laptop files; C138 (in a form with perturbed positions and readings) does the rest.
- **C140** (Blank lines and comments in DGS files are ignored) — proved; `Props/Blank.lean`: the list of lines that `read_csv` splits into records is the same with and without the line, for each of the separators; the rest of the readers depends on the file through that list only.
- **C141** (The Gaussian filter passes long waves and removes swell) — proved; `Props/Wave.lean`: the weights are symmetric, so that the sine part of the answer cancels; the gain is bounded by summation by parts (once and twice) over the sampled bell with Dirichlet and Fejér sums, and from below by 1 − ω²/2 times the variance of the sampled bell, which telescopes.
- **C142** (Corrugated surfaces and density waves give attenuated waves) — proved; `Props/Mode.lean`: orthogonality of the cosines over the grid picks the bin of the wave and its mirror image from the values proved in C71 and C72; the tail of the series is bounded with x^n exp(-x) ≤ n! and a geometric sum.
- **C143** (The low-pass filter of the scripts keeps long waves and removes swell) — proved; `Props/Lowpass.lean`: the response is real because the weights are symmetric; the weights are bounded in six groups of 40 (sinc by concavity of the sine, window by its cosine form), which gives their sum, their second moment (long waves, by 1 - x²/2 ≤ cos x) and their total variation (short waves, by summation by parts); summed three times by parts, with the sinc as an average of cosines and the window as three cosines, their third differences give the sixth power.
- **C144** (Blank lines in BGM files) — proved; `Props/BgmBlank.lean`: the blank line is filtered out before anything looks at the records; for the fixed-width layout the runs of covered positions do not change, because a blank row covers nothing.
- **C145** (Counts scaled in double precision) — proved; `Props/BgmFloat.lean`: the two readers are run side by side (a relation between results that is kept by mapM and concat); the error of the two roundings is bounded with the relative error of rounding to the nearest.
- **C146** (Date-line repair in double precision) — proved; `Props/DateLineFloat.lean`: each move of a side is two roundings of numbers below 361; the jump test agrees by monotonicity of rounding; the replacement of middles is followed pair by pair, the pairs being at least two apart. Near the date line all numbers are multiples of 2^-45 below 256, hence double precision numbers, so nothing is rounded. For read_nav the rows are those of C126 and the track that of C29.
- **C147** (Layer gravity is Newton's law) — proved; `Props/Newton.lean`: the attraction of a sheet with one wave is the Fourier transform of z/(x²+y²+z²)^(3/2): turn the axes so that the wave runs along one of them, integrate along the crests, and invert the transform of exp(-z|t|) (Lemmas/Newton). Integrated over depth this is the response of C142, and both sides are linear in the density.
- **C148** (The anomaly of a surface is Newton's law) — proved; `Props/NewtonRelief.lean`: the inverse distance is expanded in powers of the relief by the binomial series of (1-z)^(-1/2) in the complex plane (Lemmas/Relief); the coefficient integrals are identified with Parker's by uniqueness of power series from the single-wave sheet of C147; powers of a resolved relief are again resolved, so the discrete sums are the integrals (Lemmas/ReliefGrid); the tail is geometric.
- **C149** (The predicted tide is Newton's law) — proved; `Props/TideNewton.lean`: from C90, with the pull of a body expanded in zonal harmonics: the generating function 1/√(1-2cx+x²) comes from the binomial series of Lemmas/Relief, its derivative term by term is the pull, coefficients are at most 1 so the tail is a geometric-type sum (Lemmas/TidePull).
- **C150** (Free-air correction and normal gravity belong together) — proved; `Props/LatGradient.lean`: γ(1/M+1/N) is a polynomial in sin² of the latitude (the square roots cancel up to the rounding of e² in the code); polynomial inequalities on [0,1].
- **C151** (Tide at several altitudes) — proved; `Props/TideAlt.lean`: numpy's broadcasting of two one-dimensional arrays is modelled (Model/TideAlt) and the result compared point by point with the model for one altitude.
- **C152** (Accuracy of velocities and of the Eötvös correction on smooth tracks) — proved; `Props/SmoothTrack.lean`: Taylor's theorem with Lagrange remainder on both sides of the sample (Lemmas/Smooth), the closed forms of C17, C54 and C56, the acceleration in space of C122 and Lipschitz bounds of the correction in the rates.
- **C153** (Theoretical gravity is that of the level ellipsoid WGS84) — proved; `Props/NormalGravity.lean`: The field is constructed in confocal coordinates (Lemmas/Confocal, LevelField, LevelExists), unique by the maximum principle (Lemmas/MaxPrinciple), its surface gravity is Somigliana's formula (Lemmas/LevelGravity), and the constants are evaluated with partial sums of the arc tangent (Lemmas/Arctan, LevelNumeric).
- **C154** (Free-air gradient is that of the level ellipsoid WGS84) — proved; `Props/NormalGradient.lean`: Second derivative of the closed-form potential up the normal (Lemmas/Bruns), transferred to every level field by uniqueness (C153); then a polynomial inequality in sin² of the latitude.
- **C155** (Small relief on a profile acts as a sheet of mass) — partial; `Props/SmallRelief.lean`: Derivative at 0 of the finite sums of C68_value; flat parts vanish as the cosines of a bin sum to 0. Refuted by a step, whose transform at the step has only terms of one sign. False in the code for b ≠ 0 (C155_profile_refuted): the powers are those of the raw heights, so every wave has the additional factor 1 + kb + (kb)²/2 + (kb)³/6 + (kb)⁴/24 (C155_profile_response, exact for all inputs). True for b = 0 (partial).
- **C156** (Plate model against the plate that cools) — proved; `Props/CoolingPlate.lean`: Uniqueness by the energy method, existence by the full sine series (derivatives term by term, square mean at time 0 by orthogonality of the sines and the sum of 1/n²); tails bounded by geometric series; subsidence by integrating the series term by term; ridge by the inequality of Cauchy and Schwarz.
- **C157** (Half-space model against the rock that cools) — proved; `Props/CoolingHalfspace.lean`: Uniqueness: the integral of (1-z/R)² times the squared difference grows no faster than 1/R (integration by parts, completed square), for every R; existence by the error function. Subsidence through C124, isotherms through C75.
- **C158** (Plate model and half-space model against each other) — proved; `Props/CoolingCompare.lean`: The gradient of the plate is a theta function; by its functional equation (Mathlib's kernels of the Hurwitz zeta function) it is a sum over images of Gaussians, of which the half-space has one, so the excess grows with depth from 0 to the loss at the base. Calls through C156 and C157.
- **C159** (Plate isotherms against the plate that cools) — proved; `Props/CoolingIsotherm.lean`: Growth with depth from the same sum over images. Nearest node by C80, its temperature by C156: a node beyond the two neighbours of the true depth differs by more than twice the error of the series.
- **C160** (Velocities, course and rotation in double precision) — proved; `Props/NavVelFloat.lean`: Interval arithmetic with error bounds, checked by the kernel, along the operations in the order of the source; the convolution by the rounded weights and the error of the inner product. The exact side is the model of C17 to C21.
- **C161** (Thermal models in double precision) — proved; `Props/ThermalFloat.lean`: Relative errors along the operations in the order of the source. A relative error of the argument costs the exponential at most as much absolutely because x·exp(-x) ≤ 1, the error function because x·exp(-x²) ≤ 1/2, and the inverse of the complementary one because erfc(x) ≤ exp(-x²). The exact side is the model of C74 to C80.
- **C162** (Isotherms of the plate in double precision) — proved; `Props/ThermZFloat.lean`: From the accuracy of the plate temperatures (C161), the monotonicity of rounding and the definition of the minimum; the grid by the errors of the three operations that make each of its values.
- **C163** (Cross-coupling coefficients when the anomaly has a signal of its own) — proved; `Props/CrossCouplingGeology.lean`: What a least-squares fit adds to a known model is no larger than what the model leaves, which C60 and the weights of C91 bound by the curvature; Taylor's theorem twice for smooth signals; compactness (antilipschitz linear maps) for the last part.
- **C164** (The database of ships) — proved; `Props/Database.lean`: The text of the file is in the model; a reader for the part of TOML it uses (`Spec/TomlTables`) is evaluated by the kernel on it, once, and lookups are then reasoned about for all names; for added lines the reader is followed on the new line symbolically.
- **C165** (The free-air anomaly is that of the earth) — proved; `Props/Truth.lean`: The reading of a faultless gravimeter is specified from Newton's law, motion in space and the potential of the level ellipsoid (`Spec/Truth`); C104 says what the scripts compute, and C149 (tide), C152 (motion; the excess of acceleration does not depend on the zero of time) and C153 (normal gravity) say how far each term is from what it stands for. For the tables C119 and C137 are used, with the error of straight lines between fixes from Taylor's theorem.
- **C166** (The smoothed free-air anomaly is that of the earth, in a seaway) — proved; `Props/Lowpass.lean`, `Props/TruthFilter.lean`: The sum of the absolute weights (their negative parts are bounded group by group) bounds what errors become, their second moment what curvature becomes (discrete Taylor formula; a line passes unchanged by C109), and the third-power decay of the response (C143) what waves become; C165 supplies the anomaly before smoothing.
- **C167** (Smoothing in double precision) — proved; `Props/LowpassFloat.lean`: Each weight is followed through its roundings (sinc, window, product); scaling divides by a sum that is right to 6e-13; the weights are then right to 1.2e-12 in the sum of the sizes. The state with which a pass starts never reaches the samples that are kept, so each of them is an inner product of inner products, whose errors are bounded with the sum of the absolute weights (C166).
- **C168** (From tables of doubles to the anomaly of the earth) — proved; `Props/TruthFiles.lean`, `Props/TruthFloat.lean`: The exact chain (C119) takes its positions between fixes that may not be the ones the double chain takes, but at a shared fix both lines meet, so the positions agree; the tide and the motion are then the same functions of them, and the bound of C138 is a bound between the two chains. C165 and C167 give the rest; the limits on rates that C138 needs follow from the cruise, as positions between fixes are within 1/10000 degree of the track. For the files, the readers hand over the fixes and readings of C139, whose rounding is far below the bounds.
- **C169** (Gravity of a profile in double precision) — proved; `Props/Parker1dFloat.lean`: Every step is bounded in the maximum norm over the bins: the transform of the p-th power by n H^p, each term by that times κ^(p-1)/p!, so their sum by n H P(κH) with P(x) = 1 + x/2 + … + x⁴/120. The relative errors of wavenumber and depth reach the exponent multiplied with Dκ, which can be large; but P(x) e⁻ˣ ≤ 1 and x P(x) e⁻ˣ ≤ 1, so every bin has an error of a small multiple of n H. The inverse transform averages the bins. The transforms are those of any library with errors of at most n M 2⁻⁴⁵ for inputs of at most M; a witness shows that such libraries exist.
- **C170** (Gravity of a surface in double precision) — proved; `Props/Parker2dFloat.lean`: As C169, in two dimensions and for any number of powers up to 20, by induction over the loop. The distance from the mean loses digits when the relief is small against the depth (ρ): its error ρB 2⁻⁴⁴ enters the p-th power p-fold. Each bin is bounded by MN B P(κB) with P(x) = 1 + x/2 + … ; P(κB) e^(-κD) ≤ r^(P-1) and the same with a factor κD, because P(rx) ≤ r^(P-1) P(x), P(x) ≤ eˣ and x P(x) ≤ eˣ. The inverse transform averages the bins. np.mean sums pairwise, hence the assumed 2⁻⁴⁶ for sums. A witness shows that libraries with these errors exist.
- **C171** (Gravity of a layer of variable density in double precision) — proved; `Props/LayerFloat.lean`: The wavenumber has a small relative error, so the exponent has one too, which may be large in absolute terms; but x e^(-x/2) is bounded, so each exponential has a small absolute error and so has their difference, which is at most 1. The smallest wavenumber is 2π/L, because the frequencies are integers that vanish in one bin only, and that bin is set to zero in both. So every bin has an error of a small multiple of MN R L/(2π); the inverse transform averages the bins. Division of a complex number by a real one is modelled as numpy does it, by the rounded reciprocal.
- **C172** (Up vectors in double precision) — proved; `Props/UpVecsFloat.lean`: C131 bounds the error of the filter for given drives. The drives themselves have a relative error of 2⁻⁵³ each; the exact filter is linear and its answer is at most 600 times the drive in this range of periods, by the bound for recursions of second order. Arcus tangens, sine and cosine do not increase errors. In the products with the rotation matrices at most one term of each sum is not zero, so the order of summation and fused operations do not matter.
- **C173** (Derivatives of recorded values in double precision) — proved; `Props/DifferenceFloat.lean`: Truncation is Taylor's theorem as in C152; the differences are linear, so errors of the record enter with the weights 1/2, 1/2 and 1, 2, 1; every rounding has a relative error of at most 2⁻⁵² of an intermediate value, which is at most 5F times samp².
