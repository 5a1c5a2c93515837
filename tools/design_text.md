# Formal model of PFPE/shipgrav in Lean 4

## 1. What is modelled, and how

The Python package `shipgrav` (`/repo/shipgrav`) is modelled by hand, function by function, as total Lean functions.  Every
model definition cites the file and the lines it models.  Layout (`lean/Verif/`):

* `Py/…`     — the Python, numpy, scipy and pandas primitives that are used (string methods, slices, float and int parsing and printing,
  `np.unique`, `np.interp`, discrete Fourier transform, error function, calendar), written as explicit definitions.
* `Model/…`  — the code of `utils.py`, `nav.py`, `io.py`, `grav.py`, and (`Model/Scripts`, `Lowpass`, `Track`, `Serial`, `Kinematics`, `Envelope`, `Coherence`, `Pipeline`) the computations of the example scripts.
* `Spec/…`   — small independent specifications used in theorem statements.  They do not refer to the model.
* `Lemmas/…` — helper lemmas (no claims).
* `Props/…`  — the property theorems, `Cnn_…`, and at the end of each file examples that meet their hypotheses.

| module of the model | code |
|---|---|
| `Model/Gaussian` (in double precision `GaussianFloat`), `Status`, `Ini`, `Cursor` | `utils.py`: `gaussian_filter`, `decode_dgs_status_bits`, `clean_ini_to_toml`, `_SnappingCursor` |
| `Model/Nav` (in double precision `NavVelFloat`) | `nav.py`: all functions |
| `Model/NavParse`, `ReadNav`, and in double precision `NavFloat`, `CoordFloat`, `DateLineFloat` | `io.py`: `read_nav`, the navigation readers of all ships, `_navcoords`, `_clock_time`, `_clean_180cross` |
| `Model/Bgm` (in double precision `BgmFloat`) | `io.py`: `read_bgm_rgs`, `read_bgm_raw`, the readers of all ships, `_despike_bgm_serial` |
| `Model/Dgs` | `io.py`: `read_dgs_laptop`, `read_dgs_raw`, the readers of all ships |
| `Model/Other` | `io.py`: `read_other_stuff` |
| `Model/Database` | `database.toml`, and what `io.py` and the scripts take from it |
| `Model/Tide`, `Eotvos`, `LatCorr`, `CrossCoupling`, `Tilt` (in double precision `TideFloat`, `LatCorrFloat`, `EotvosFloat`, `TiltFloat`, `UpVecsFloat`) | `grav.py`: tide, Eötvös, latitude and free-air corrections, cross coupling, platform tilt |
| `Model/Parker1d` (in double precision `Parker1dFloat`), `Parker2d` (in double precision `Parker2dFloat` and `LayerFloat`), `Thermal` (in double precision `ThermalFloat`), `Crust` | `grav.py`: `grav1d_padded`, `grav2d_folding`, `grav2d_layer_variable_density`, the `therm_*` functions, `crustal_thickness_2D` |
| `Model/Scripts` | `example-scripts/`: synchronisation, dropouts, free-air anomaly, level error, cross-coupling correction, segments, RMBA |
| `Model/Lowpass`, `Track` | `example-scripts/`: low-pass filter and trimming (all scripts); extension of the line, embedding of the anomaly, even spacing (`RMBA_calc.py`) |
| in double precision `Model/FreeAirFloat`, `LowpassFloat`, `SyncFloat`, `FilesFloat` | `example-scripts/`: free-air anomaly; low-pass filter; positions at the times of the gravimeter, sorting and the chain of steps; from the lines of the files to the anomaly (`interactive_line_pick.py`) |
| `Model/Serial`, `Kinematics`, `Envelope`, `Coherence`, `Pipeline` | `example-scripts/`: clean-up and calibration (`dgs_raw_comp.py`); accelerations from positions (`dgs_ccp_calc.py`); series of the motion sensor and coherence (`mru_coherence.py`); sorting and the chain of steps to the free-air anomaly |

Exceptions are values (`Except PyErr α`); the `-999` sentinel is a value (`Ret.sentinel`).  Arrays changed in place (`up_vecs`,
`_clean_180cross`, `inds.pop()`) are returned beside the result.

### Numbers
* Finite floats are exact numbers: `ℚ` where only field arithmetic and comparison occur (readers, cursor, dropouts), `ℝ` where `sin`, `exp`, `sqrt`,
  `erf` occur, `ℂ` for Fourier transforms.  Rounding and overflow are outside, except in the next item.
* Double precision (`Py/Float64`) is modelled for the time stamps of `read_nav` and of the Ride (`Model/NavFloat`, `NavParse`), for positions (`Model/CoordFloat`), for the Gaussian
  filter (`Model/GaussianFloat`), for the tilt filter and the up vectors (`Model/TiltFloat`, `Model/UpVecsFloat`), for the latitude corrections (`Model/LatCorrFloat`), for the Eötvös correction (`Model/EotvosFloat`), for the tide (`Model/TideFloat`), for the free-air anomaly of the scripts (`Model/FreeAirFloat`), for the scaling of BGM counts (`Model/BgmFloat`), for the repair at the date line (`Model/DateLineFloat`; `fmod` is exact) for velocities, course and rotation (`Model/NavVelFloat`), for the thermal models (`Model/ThermalFloat`), for the low-pass filter of the scripts (`Model/LowpassFloat`), for the gravity of a profile, of a surface and of a layer (`Model/Parker1dFloat`, `Model/Parker2dFloat`, `Model/LayerFloat`) and for the positions at the times of the gravimeter (`Model/SyncFloat`; `timestamp()` of a time stamp is the double precision number nearest to its seconds), and compared there with the exact model: C87, C126–C128, C131–C136, C145, C146, C160–C162, C167, C169–C173; C138 puts the steps from the tables of the readers to the anomaly together, and C139 those from the lines of the files (`Model/FilesFloat`; the number parser of pandas is any function with a relative error of at most 2^-50, tables with missing values are left out).  Numbers have 53 binary digits and unlimited exponents, so
  overflow and underflow are outside; ties go to even.  `np.exp` is any function with a relative error of at most 2^-51;
  `np.tan` (on [-1, 1]), `np.sin` (on [-2, 2]), `np.sqrt` and `x**2` likewise, with at most 2^-51, 2^-51, 2^-52 and 2^-52; for C133 `np.sin`, `np.cos` and `np.arctan` (on [-4, 4]) have an absolute error of at most 2^-51; for C134, C135, C138, C139 and C168 so have `np.sin` and `np.cos` (on [-1e5, 1e5]), `np.arctan` (everywhere), `np.arcsin` and `np.arccos` (on [-1, 1]), and `x**3` has a relative error of at most 2^-52.  For C167 `np.sin` and `np.cos` (on [-7, 7]) have an absolute error of at most 2^-51, and sums and inner products of n ≤ 1000 terms one of at most (n+1)·2^-51 times the sum of the sizes of the terms (proved for summation from left to right; C168 smooths with the same).  For C160 `np.sin`, `np.cos`, `x**3` as there, `np.arctan2` has an absolute error of at most 2^-51, and an inner product of n terms in `np.convolve` one of at most (n+1)·2^-51 times the sum of the sizes of the products (proved for summation from left to right; it holds for any order).  For C161 `np.exp`, `np.sqrt` and `x**2` have relative errors of at most 2^-51, 2^-52 and 2^-52, `np.sin` (on [-1e5, 1e5]) and `erf` absolute ones of at most 2^-51, and `erfcinv` (on (0, 1]) one of at most 2^-50 times one plus its value; C162 assumes the same.  For C169 every entry of `np.fft.fft` of n numbers of at most M has an error of at most n·M·2^-45 and every entry of `np.fft.ifft` one of at most M·2^-45, `np.exp` and powers have relative errors of at most 2^-51, `np.sqrt` of at most 2^-52, and the sum of n numbers in `np.mean` an error of at most (n+1)·2^-51 times the sum of their sizes.  For C170 and C171 the same holds of `np.fft.fft2` and `np.fft.ifft2`, of powers up to the 20th, and the sum in `np.mean` has an error of at most 2^-46 times the sum of the sizes (pairwise summation).  For C172 `np.arctan` (everywhere) and `np.sin` and `np.cos` (on [-2, 2]) have an absolute error of at most 2^-51.  Fused multiply-add is outside.
* NaN is a value (`none`) where the code produces or tests it.  Infinite values leave the model where they could occur (said at the
  definition).
* Python `int` is `ℤ` or `ℕ` (unbounded, as in Python).

### Strings
`List Char`; digits, white space and letter case are those of ASCII.

## 2. Trusted base
* Lean 4.33.0's kernel, and Mathlib as shipped with it.
* Axioms: every theorem in MANIFEST.json depends on a subset of `propext`, `Classical.choice`, `Quot.sound` and on nothing else
  (`#print axioms`, all of them).  `Classical.choice` comes in with the real numbers and with Mathlib's tactics.  There is no `sorry`,
  no axiom of our own, no `native_decide` and no `bv_decide`.
* The reading of the Python source in `Model/`, and of the library primitives in `Py/`.  Both were written by hand from the source text and the
  documented behaviour of the libraries; the code has not been run.
* Library calls whose result is only characterised, not computed: `statsmodels` OLS (the theorems speak about every least-squares solution),
  `scipy.special.erf` and `erfcinv` (defined by the integral and as its inverse), `np.fft` (defined by the exponential sums).

## 3. What is not modelled
* In the library: progress bars, warnings and drawing.  The parsing of TOML by `tomli` (`Spec/TomlTables` reads the part of TOML that `database.toml` uses, and C164 shows
  that the tables of talkers and scale factors copied into the models are those of the file) and of YAML (`read_other_stuff` gets the parsed dictionaries).
* The file system: a file is its text or the list of its lines, and a written file is its text; for the clean-up of serial files it is a map from paths to
  texts (no directories, links, permissions or encodings).
* In the example scripts: downloads, plots and printing.  The geodesics of `geographiclib` are arbitrary functions.

## 4. Simplifications
* `clean_ini_to_toml`: what the operating system has flushed when an exception leaves the function is taken to be all lines written.
* `arctan2`: signed zeros are not distinguished.
* pandas: copy-on-write, dtype promotion and duplicate column names are left out unless a property is about them; `strptime` works on
  the fields of fixed formats, and other forms of dates are a parameter (`OtherTimes`, `Dates`) about which nothing is assumed; `csv` quoting is left out.
* Readers: what pandas does with floating DGS dates (a missing or broken stamp makes the whole column floating) is a parameter (`Dates`).
* `read_other_stuff`: of repeated column names the first one wins; the texts `nan` and `inf` become NaN.
* Instants are whole microseconds: the nanosecond that pandas can lose when it converts floating seconds is not modelled (it does not reach
  `timestamp()`, which rounds to microseconds).
* `_clean_180cross`: infinite coordinates are not told from NaN.
* Tide: UTC time stamps, one altitude for all points (an array of altitudes in `Model/TideAlt`); a point where numpy would divide by zero or leave a domain has no value at all.
* Eötvös: arrays of unequal length raise (one broadcasting case is left out), `a = 0` is left out.
* Cross coupling: `np.convolve(…, 'same')` for series of 11 samples or more, which all stretches have.
* Tilt, Parker: broadcasting of arrays of length one is left out; `dx = 0` and profiles of a single point are left out of the claims that divide.
* Thermal: infinite ages and depths count as no value; `zL0 ≠ 0`; one isotherm per call of `therm_Z_halfspace`.
* Crust: scalars are Python floats, so a division by zero raises.
* Scripts: columns of one table have equal length; the `interp1d` of positions gets at least two increasing times; an extension of infinite length is a `ValueError`;
  `np.interp` gets increasing times; TOML tables are looked up in the list of statements of the document;
  `coherence` gets two series of the same length; rows with the same time keep their order when sorted (pandas leaves it open).

## 5. Where code and documentation disagree
Each of these is a theorem named `…_refuted` (or a theorem that says what happens instead), beside the part that does hold.

* `gaussian_filter`: the centre weight is below its neighbours (C05); the delay is ⌊fl/2⌋ samples and not `fl` as the docstring says (C04).
* `clean_ini_to_toml`: comments after unquoted strings are dropped (C13); the file written can be unreadable or say something else when a
  number has no digit before the point, a key or text contains `TRUE` or `FALSE`, or a text contains `=` or a backslash (C108).
* `_SnappingCursor`: the cross-hair takes the first point at or after the mouse, not the closest (C16).
* `_clock_time`: 0.50 s is read as 0.05 s and the like (C24); Thompson stamps drop the fraction (C26); fixes can change order (C25); logger date and clock around midnight give
  stamps a day off (C26).
* `read_nav`: the argument `sampling` has no effect (C30).
* `_navdate_Ride`: stamps of the Sikuliaq are a microsecond early for some fractions of four digits or more, because a product is cut and not rounded (C87).
* `_despike_bgm_serial`: a single spike stays (C39).
* `read_other_stuff`: the last line is lost (C45); an empty first field shifts the others (C46).
* `calc_cross_coupling_coefficients`: everything after the last gap is left out (C59).
* `grav1d_padded`: wrong upper wavenumbers for odd lengths (C69); result depends on the vertical datum (C98), and so does its response to small relief (C155).
* `grav2d_layer_variable_density`: one wrong bin (C73).
* `therm_plate`: hotter than the mantle near zero age (C78); subsidence with fewer terms than the temperatures beside it (C125); with the default values 190–200 m of subsidence at age 0, where there is none (C156).
* `crustal_thickness_2D`: recovered gravity shifted by a sample (C81), thickness in reversed order with `back=True` (C82), wavenumbers of the bin before (C84), complex
  result (C96).
* Example scripts: level error with components exchanged (C101), dropout removal (C103), level error two samples late in the fit and not corrected for (C105), last
  row of each segment missing (C106), end effects of the filter in the last 239 samples that are kept (C110), cleaned serial files that are not
  brought up to date (C115), Eötvös correction too large on both sides of a gap in the readings (C120).
