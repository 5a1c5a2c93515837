{
 "C01": "ring buffer as a fold over the list; invariant: the buffer is the last L samples of the zero-padded prefix.",
 "C02": "weights as explicit lists over ℝ; positivity/normalisation, convexity bound.",
 "C03": "corollary of the closed form of C01.",
 "C04": "symmetry of the kernel + closed form; refutation of the docstring's shift.",
 "C05": "refuted: centre tap < neighbour for every fl ≥ 2; `_partial`: non-increasing from the first neighbour outwards.",
 "C06": "format(_,'016b') modelled digit by digit; identified with Nat.testBit.",
 "C07": "same model, out-of-range branch.",
 "C08": "frame = ordered list of named columns; `insert` modelled with pandas' duplicate check.",
 "C09": "rstrip of a character set over List Char.",
 "C10": "line by line; re.sub of literals and float() modelled on List Char.",
 "C11": "writer state (lines written so far, error) .",
 "C12": "line-level idempotence + global substitutions idempotent.",
 "C13": "refuted with a witness; general theorem: the comment is always dropped; `_partial`: kept for non-requoted lines.",
 "C14": "event state machine, refinement to a stack by induction over the history.",
 "C15": "argmin model with first-minimum spec, invariant over histories.",
 "C16": "refuted; `_partial`: snaps to the first point at or after the mouse (last point if none).",
 "C17": "arrays as List; NaN as none.",
 "C18": "tay10 moments of degree 0..10 over ℝ, by polynomial arithmetic.",
 "C19": "closed form of the 'same' convolution.",
 "C20": "arctan2 := Complex.arg (vn + i ve).",
 "C21": "trigonometric identities.",
 "C22": "parser on List Char; parse ∘ format.",
 "C23": "filter lemma.",
 "C24": "refuted by witness; exact iff-characterisation of the fractions decoded correctly (up to 13 decimals). The seconds go through double precision and their shortest decimal (Py/Repr), for which reading back is proved.",
 "C25": "refuted with concrete files; `_partial`.",
 "C26": "calendar model + clock.",
 "C27": "backward scan = last matching line in the gap.",
 "C28": "np.unique model sorted + first-occurrence.",
 "C29": "np.interp at a knot returns the knot value; unique completeness.",
 "C30": "refuted: output independent of `sampling`.",
 "C31": "strided slice model.",
 "C32": "decision logic over the database table.",
 "C33": "floor-mod arithmetic over ℚ.",
 "C34": "index-bounds invariant of the pair loop.",
 "C35": "CPython's ymd2ord; monotone on valid dates.",
 "C36": "frame as list of rows.",
 "C37": "decision logic.",
 "C38": "sublist lemma.",
 "C39": "spike model; single-spike refutation.",
 "C40": "line filter on List Char.",
 "C41": "concat homomorphism.",
 "C42": "column map.",
 "C43": "decision logic.",
 "C44": "regex as comma-field matcher.",
 "C45": "loop over readline/tell; refuted for last line; `_partial` for all other lines.",
 "C46": "split/zip model.",
 "C47": "rational arithmetic on datetime fields.",
 "C48": "definitional sum over ℝ plus per-point map.",
 "C49": "2π-periodicity.",
 "C50": "spherical-trigonometry identities and irrationality of π.",
 "C51": "unit-vector bounds and interval estimates.",
 "C52": "vector algebra over ℝ.",
 "C53": "vector algebra.",
 "C54": "vector algebra + list shape.",
 "C55": "parametrise the first wdot component.",
 "C56": "polynomial identities.",
 "C57": "monotone in sin².",
 "C58": "real arithmetic.",
 "C59": "refuted with witness; general theorem: nothing after the last gap matters; `_partial` for earlier segments.",
 "C60": "length arithmetic.",
 "C61": "moments of tay10 + linearity of FIR.",
 "C62": "least squares as minimiser of the residual norm; statsmodels trusted to return one.",
 "C63": "rotation algebra.",
 "C64": "lfilter of zero is zero.",
 "C65": "real and imaginary part of the characteristic equation; both roots inside the unit circle bound the recursion.",
 "C66": "model returns mutated arrays.",
 "C67": "branch.",
 "C68": "DFT as explicit exponential sum.",
 "C69": "refuted for odd n; proved for even n incl. Hermitian symmetry.",
 "C70": "length arithmetic of the wavenumber vectors.",
 "C71": "DFT symmetry.",
 "C72": "DFT linearity.",
 "C73": "refuted at bin ⌊n/2⌋+1; `_partial` elsewhere.",
 "C74": "erf as integral of exp(-t²).",
 "C75": "erfcinv constructed as the inverse of the strictly monotone erfc.",
 "C76": "algebra.",
 "C77": "sin(nπ)=0.",
 "C78": "refuted in the middle of young plates; decay estimates for the rest.",
 "C79": "monotone exponentials, π bounds.",
 "C80": "argmin.",
 "C81": "double DFT = index reversal; refuted, exact shift theorem.",
 "C82": "refuted; exact reversal theorem.",
 "C83": "linearity.",
 "C84": "refuted; exact bin map.",
 "C85": "decision logic + column pick.",
 "C86": "parser of the stamp on characters, inverse of a formatter; calendar model.",
 "C87": "parsers of the two Ride formats (POSIX seconds, ISO) on characters, inverses of formatters; rounding to double precision bounded.",
 "C88": "records made of numerals at given positions; the reader returns these numbers and the instants.",
 "C89": "records made of a date, a clock time and numerals; the reader returns them and the instants.",
 "C90": "the code's spherical trigonometry is identified with scalar products of unit vectors built by rotations (Spec/Tide).",
 "C91": "firwin is identified with a tapered, normalised sinc whose weights are shown to be non-negative.",
 "C92": "lfilter state machine = difference equation, by induction; rotation of (0,0,1) by arctan angles in closed form.",
 "C93": "prefix stability of the recursion.",
 "C94": "HasDerivAt of the error function twice in depth and once in age; limits by squeezing.",
 "C95": "term by term derivatives of the ten exponentials; exponential decay.",
 "C96": "refuted with a spike: the continuation factors of opposite bins differ in size.",
 "C97": "event state machine; argmin as in C15.",
 "C98": "closed form of C68; refuted with a step profile and a monotonicity argument.",
 "C99": "algebra on the model: only deviations from the mean enter.",
 "C100": "polar decomposition of C20 and derivatives of s*sin(phi), s*cos(phi).",
 "C101": "up vectors of C92 inserted into the script's formula; refuted at the first sample because the filter's first coefficient is not zero.",
 "C102": "searchsorted on increasing times counts a prefix; straight-line algebra.",
 "C103": "np.where/np.diff/drop as filters over indices; refuted by evaluation of two small tables; the proved part is by cases on neighbours.",
 "C104": "composition of C54, C57, C58, C48, C50, C51.",
 "C105": "the two-row offset is carried through calc_cross_coupling_coefficients; then C62.",
 "C106": "list algebra; C15 for the bounds; uniqueness of splitting for file names.",
 "C107": "composition of C68 and of the isotherm depths; induction over the loop of isotherms; telescoping contrasts.",
 "C108": "a small reader for TOML lines as specification; refuted with witnesses, proved for well-behaved lines.",
 "C109": "`lfilter` with its state, `lfilter_zi` and odd extension are modelled; two passes equal a double sum over the continued series; the weights from `firwin` are shown to have sum one and symmetry.",
 "C110": "the double sum reaches 479 samples to both sides; a witness (one sample more) for the end of the series.",
 "C111": "the mean of the differences telescopes; floor inequalities; positions in the appended lists.",
 "C112": "rows of the label slice counted; position by position.",
 "C113": "sorted permutation of the nodes, counting search, neighbours have no node between them.",
 "C114": "membership in the window of the last 1000 entries; counting search in `np.interp`; case distinction where the time lies.",
 "C115": "files are a map from paths to texts; induction over the list of paths with the invariants: existing files stay, only cleaned paths change.",
 "C116": "channel by channel on the table (set/get of columns); TOML look-up by position of the table; end to end with the theorem on converted ini files (C108).",
 "C117": "composition of the theorems on `latlon_to_EN`, the stencil and the rotation (C17–C21) with the propagation of NaN through the convolution.",
 "C118": "the spectral estimate is reduced to sums over segments; Cauchy–Schwarz; linearity of the windowed transform in the series less its mean.",
 "C119": "sorting by distinct keys has one result; composition of the theorems on interpolation (C102) and anomaly (C104).",
 "C120": "composition as in C119; the correction along a parallel grows with speed (C53).",
 "C121": "the exponential series of the column integral with an explicit rest; the code's terms identified with it by linearity of the transform.",
 "C122": "the position in space is differentiated twice; the difference to the formula is expanded in the flattening and bounded.",
 "C123": "the recursion is linear with both roots inside the unit circle; the sinusoidal solution is explicit and the difference to it goes to zero.",
 "C124": "erfc is bounded by exp(-y^2)/(y sqrt(pi)); the integral of erfc from an explicit antiderivative.",
 "C125": "sines integrated over the plate; what the three terms leave out.",
 "C126": "rounding is strictly monotone on microseconds within 2^33 seconds of 1970, so sorting, de-duplication and interpolation at the knots commute with it; `fromtimestamp` inverts it.",
 "C127": "relative error of the three roundings of int + float/60, and the bound on three-character integers.",
 "C128": "every rounding is a factor between exp(-2^-52) and exp(2^-52); the factors of a term multiply; the weights are positive and sum to one.",
 "C129": "the readers are homomorphisms for concatenation of lines; the track is determined by the set of fixes (strictly sorted, same members); longitudes are determined by the track.",
 "C130": "each file alone gives the columns of its records (C36, C40, C43, C44, C85, C88, C89); concatenation of tables of one shape is concatenation of columns.",
 "C131": "relative errors through `_tilt_filter` give coefficients within 350 units of 2^-52; the residual of the exact difference equation is bounded sample by sample, and the poles (modulus at most 1 - s) bound the answer to it; bootstrap by induction over the samples.",
 "C132": "absolute errors from the conversion to radians through sine and square; then relative errors through quotient, square root and product (normal gravity) and absolute ones through the polynomial in height (free air).",
 "C133": "the formula is written once for every arithmetic; in an arithmetic of bounds (size, error) every operation is shown to bound the rounded one, so that the bounds computed for the whole formula hold; they are evaluated by the kernel.",
 "C134": "the formula is written once for every arithmetic; intervals with error bounds are carried through every operation and checked by the kernel. The result is compared with the exact formula for the computed longitude of the node, on which the exact tide depends smoothly; that no whole second comes closer than 3e-11 radians to the crossing follows from eleven brackets and the digits of pi.",
 "C135": "the bounds of C132, C133 and C134 are combined in the arithmetic of bounds, with the rounding of the three sums.",
 "C136": "the rounded search picks the right pair because rounding keeps the order of different microseconds; the shift of the three times is a convex combination of their errors; relative errors of the five roundings are multiplied.",
 "C137": "perturbation bounds are carried through the formulas for normal gravity, lunar and solar tide and Eötvös correction; the bound is nearly attained by errors of longitude of opposite sign before and after a sample on the equator.",
 "C138": "rows are sorted into the given order (unique, as instants differ and rounding keeps their order); C136 bounds the error of positions, C137 what it does to the exact anomaly, C135 the rounding of the corrections.",
 "C139": "per line, C87 gives the instant and C127 the position to 2^-39 degrees; C146 turns the files into sorted rows; C88 and C130 read the laptop files; C138 (in a form with perturbed positions and readings) does the rest.",
 "C140": "the list of lines that `read_csv` splits into records is the same with and without the line, for each of the separators; the rest of the readers depends on the file through that list only.",
 "C141": "the weights are symmetric, so that the sine part of the answer cancels; the gain is bounded by summation by parts (once and twice) over the sampled bell with Dirichlet and Fejér sums, and from below by 1 − ω²/2 times the variance of the sampled bell, which telescopes.",
 "C142": "orthogonality of the cosines over the grid picks the bin of the wave and its mirror image from the values proved in C71 and C72; the tail of the series is bounded with x^n exp(-x) ≤ n! and a geometric sum.",
 "C143": "the response is real because the weights are symmetric; the weights are bounded in six groups of 40 (sinc by concavity of the sine, window by its cosine form), which gives their sum, their second moment (long waves, by 1 - x²/2 ≤ cos x) and their total variation (short waves, by summation by parts); summed three times by parts, with the sinc as an average of cosines and the window as three cosines, their third differences give the sixth power.",
 "C144": "the blank line is filtered out before anything looks at the records; for the fixed-width layout the runs of covered positions do not change, because a blank row covers nothing.",
 "C145": "the two readers are run side by side (a relation between results that is kept by mapM and concat); the error of the two roundings is bounded with the relative error of rounding to the nearest.",
 "C146": "each move of a side is two roundings of numbers below 361; the jump test agrees by monotonicity of rounding; the replacement of middles is followed pair by pair, the pairs being at least two apart. Near the date line all numbers are multiples of 2^-45 below 256, hence double precision numbers, so nothing is rounded. For read_nav the rows are those of C126 and the track that of C29.",
 "C147": "the attraction of a sheet with one wave is the Fourier transform of z/(x²+y²+z²)^(3/2): turn the axes so that the wave runs along one of them, integrate along the crests, and invert the transform of exp(-z|t|) (Lemmas/Newton). Integrated over depth this is the response of C142, and both sides are linear in the density.",
 "C148": "the inverse distance is expanded in powers of the relief by the binomial series of (1-z)^(-1/2) in the complex plane (Lemmas/Relief); the coefficient integrals are identified with Parker's by uniqueness of power series from the single-wave sheet of C147; powers of a resolved relief are again resolved, so the discrete sums are the integrals (Lemmas/ReliefGrid); the tail is geometric.",
 "C149": "from C90, with the pull of a body expanded in zonal harmonics: the generating function 1/√(1-2cx+x²) comes from the binomial series of Lemmas/Relief, its derivative term by term is the pull, coefficients are at most 1 so the tail is a geometric-type sum (Lemmas/TidePull).",
 "C150": "γ(1/M+1/N) is a polynomial in sin² of the latitude (the square roots cancel up to the rounding of e² in the code); polynomial inequalities on [0,1].",
 "C151": "numpy's broadcasting of two one-dimensional arrays is modelled (Model/TideAlt) and the result compared point by point with the model for one altitude.",
 "C152": "Taylor's theorem with Lagrange remainder on both sides of the sample (Lemmas/Smooth), the closed forms of C17, C54 and C56, the acceleration in space of C122 and Lipschitz bounds of the correction in the rates.",
 "C153": "The field is constructed in confocal coordinates (Lemmas/Confocal, LevelField, LevelExists), unique by the maximum principle (Lemmas/MaxPrinciple), its surface gravity is Somigliana's formula (Lemmas/LevelGravity), and the constants are evaluated with partial sums of the arc tangent (Lemmas/Arctan, LevelNumeric).",
 "C154": "Second derivative of the closed-form potential up the normal (Lemmas/Bruns), transferred to every level field by uniqueness (C153); then a polynomial inequality in sin² of the latitude.",
 "C155": "Derivative at 0 of the finite sums of C68_value; flat parts vanish as the cosines of a bin sum to 0. Refuted by a step, whose transform at the step has only terms of one sign.",
 "C156": "Uniqueness by the energy method, existence by the full sine series (derivatives term by term, square mean at time 0 by orthogonality of the sines and the sum of 1/n²); tails bounded by geometric series; subsidence by integrating the series term by term; ridge by the inequality of Cauchy and Schwarz.",
 "C157": "Uniqueness: the integral of (1-z/R)² times the squared difference grows no faster than 1/R (integration by parts, completed square), for every R; existence by the error function. Subsidence through C124, isotherms through C75.",
 "C158": "The gradient of the plate is a theta function; by its functional equation (Mathlib's kernels of the Hurwitz zeta function) it is a sum over images of Gaussians, of which the half-space has one, so the excess grows with depth from 0 to the loss at the base. Calls through C156 and C157.",
 "C159": "Growth with depth from the same sum over images. Nearest node by C80, its temperature by C156: a node beyond the two neighbours of the true depth differs by more than twice the error of the series.",
 "C160": "Interval arithmetic with error bounds, checked by the kernel, along the operations in the order of the source; the convolution by the rounded weights and the error of the inner product. The exact side is the model of C17 to C21.",
 "C161": "Relative errors along the operations in the order of the source. A relative error of the argument costs the exponential at most as much absolutely because x·exp(-x) ≤ 1, the error function because x·exp(-x²) ≤ 1/2, and the inverse of the complementary one because erfc(x) ≤ exp(-x²). The exact side is the model of C74 to C80.",
 "C162": "From the accuracy of the plate temperatures (C161), the monotonicity of rounding and the definition of the minimum; the grid by the errors of the three operations that make each of its values.",
 "C163": "What a least-squares fit adds to a known model is no larger than what the model leaves, which C60 and the weights of C91 bound by the curvature; Taylor's theorem twice for smooth signals; compactness (antilipschitz linear maps) for the last part.",
 "C164": "The text of the file is in the model; a reader for the part of TOML it uses (`Spec/TomlTables`) is evaluated by the kernel on it, once, and lookups are then reasoned about for all names; for added lines the reader is followed on the new line symbolically.",
 "C165": "The reading of a faultless gravimeter is specified from Newton's law, motion in space and the potential of the level ellipsoid (`Spec/Truth`); C104 says what the scripts compute, and C149 (tide), C152 (motion; the excess of acceleration does not depend on the zero of time) and C153 (normal gravity) say how far each term is from what it stands for. For the tables C119 and C137 are used, with the error of straight lines between fixes from Taylor's theorem.",
 "C166": "The sum of the absolute weights (their negative parts are bounded group by group) bounds what errors become, their second moment what curvature becomes (discrete Taylor formula; a line passes unchanged by C109), and the third-power decay of the response (C143) what waves become; C165 supplies the anomaly before smoothing.",
 "C167": "Each weight is followed through its roundings (sinc, window, product); scaling divides by a sum that is right to 6e-13; the weights are then right to 1.2e-12 in the sum of the sizes. The state with which a pass starts never reaches the samples that are kept, so each of them is an inner product of inner products, whose errors are bounded with the sum of the absolute weights (C166).",
 "C168": "The exact chain (C119) takes its positions between fixes that may not be the ones the double chain takes, but at a shared fix both lines meet, so the positions agree; the tide and the motion are then the same functions of them, and the bound of C138 is a bound between the two chains. C165 and C167 give the rest; the limits on rates that C138 needs follow from the cruise, as positions between fixes are within 1/10000 degree of the track. For the files, the readers hand over the fixes and readings of C139, whose rounding is far below the bounds.",
 "C169": "Every step is bounded in the maximum norm over the bins: the transform of the p-th power by n H^p, each term by that times κ^(p-1)/p!, so their sum by n H P(κH) with P(x) = 1 + x/2 + … + x⁴/120. The relative errors of wavenumber and depth reach the exponent multiplied with Dκ, which can be large; but P(x) e⁻ˣ ≤ 1 and x P(x) e⁻ˣ ≤ 1, so every bin has an error of a small multiple of n H. The inverse transform averages the bins. The transforms are those of any library with errors of at most n M 2⁻⁴⁵ for inputs of at most M; a witness shows that such libraries exist.",
 "C170": "As C169, in two dimensions and for any number of powers up to 20, by induction over the loop. The distance from the mean loses digits when the relief is small against the depth (ρ): its error ρB 2⁻⁴⁴ enters the p-th power p-fold. Each bin is bounded by MN B P(κB) with P(x) = 1 + x/2 + … ; P(κB) e^(-κD) ≤ r^(P-1) and the same with a factor κD, because P(rx) ≤ r^(P-1) P(x), P(x) ≤ eˣ and x P(x) ≤ eˣ. The inverse transform averages the bins. np.mean sums pairwise, hence the assumed 2⁻⁴⁶ for sums. A witness shows that libraries with these errors exist.",
 "C171": "The wavenumber has a small relative error, so the exponent has one too, which may be large in absolute terms; but x e^(-x/2) is bounded, so each exponential has a small absolute error and so has their difference, which is at most 1. The smallest wavenumber is 2π/L, because the frequencies are integers that vanish in one bin only, and that bin is set to zero in both. So every bin has an error of a small multiple of MN R L/(2π); the inverse transform averages the bins. Division of a complex number by a real one is modelled as numpy does it, by the rounded reciprocal.",
 "C172": "C131 bounds the error of the filter for given drives. The drives themselves have a relative error of 2⁻⁵³ each; the exact filter is linear and its answer is at most 600 times the drive in this range of periods, by the bound for recursions of second order. Arcus tangens, sine and cosine do not increase errors. In the products with the rotation matrices at most one term of each sum is not zero, so the order of summation and fused operations do not matter.",
 "C173": "Truncation is Taylor's theorem as in C152; the differences are linear, so errors of the record enter with the weights 1/2, 1/2 and 1, 2, 1; every rounding has a relative error of at most 2⁻⁵² of an intermediate value, which is at most 5F times samp²."
}