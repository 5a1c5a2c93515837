{"id": "C01", "title": "gaussian_filter is a causal moving weighted sum", "statement": "gaussian_filter(x, fl) returns a series of the same length as x whose sample i is sum_j w_j * x[i-(L-1)+j] over the last L = 2*floor(fl/2)+1 samples (samples before the start count as 0); so it never depends on later samples. If len(x) <= fl it raises AssertionError and returns nothing.", "quantifier": "every series x, every filter length fl >= 1, every output index", "why_tests_cant": "the identity must hold for every series content and every (length, fl) pair; the unit test looks at one spike with fl=10", "anchors": ["shipgrav/utils.py:gaussian_filter", "shipgrav/utils.py:_gaussian_coeffs"]}
{"id": "C02", "title": "gaussian_filter weights form a symmetric averaging kernel", "statement": "For every fl >= 1 the weights used by gaussian_filter are 2*floor(fl/2)+1 in number, strictly positive, symmetric about the middle, and sum to 1; hence once warmed up (i >= 2*floor(fl/2)) the output lies between the minimum and maximum of the samples in its window and a constant series is reproduced exactly.", "quantifier": "every fl >= 1 and every series", "why_tests_cant": "fl and series are unbounded; a test fixes a handful of lengths", "anchors": ["shipgrav/utils.py:_gaussian_coeffs", "shipgrav/utils.py:gaussian_filter"]}
{"id": "C03", "title": "gaussian_filter is linear and time-invariant", "statement": "gaussian_filter(a*x + b*y, fl) = a*gaussian_filter(x, fl) + b*gaussian_filter(y, fl) elementwise, and prepending d zeros to x prepends d zeros to the output.", "quantifier": "all series of equal length, all scalars, all delays", "why_tests_cant": "quantifies over all pairs of series and scalars", "anchors": ["shipgrav/utils.py:gaussian_filter"]}
{"id": "C04", "title": "gaussian_filter delays a signal by a known amount", "statement": "After warm-up, a linear ramp x[i] = a + b*i comes out as a + b*(i - floor(fl/2)): the delay is floor(fl/2) samples for every fl (the docstring's 'shift by fl' is false for every fl >= 1 and b != 0).", "quantifier": "every fl >= 1, every slope and offset, every index past the warm-up", "why_tests_cant": "delay is a statement about every fl and every ramp", "anchors": ["shipgrav/utils.py:gaussian_filter", "shipgrav/utils.py:_gaussian_coeffs"]}
{"id": "C05", "title": "gaussian kernel is bell shaped", "statement": "The weights used by gaussian_filter are largest at the centre of the window and non-increasing away from it.", "quantifier": "every fl >= 1 and every tap", "why_tests_cant": "a shape statement over every length and tap; a test on the output of a spike cannot see it", "anchors": ["shipgrav/utils.py:_gaussian_coeffs"]}
{"id": "C06", "title": "DGS status word decode is exact for 16-bit words", "statement": "For 0 <= stat < 2^16, decode_dgs_status_bits(stat) gives each of the 16 named flags '0' or '1', the k-th named flag being bit 15-k of stat; decoding is injective: the word is recovered from the flags.", "quantifier": "all 65536 words (proved for all naturals below 2^16 by bit arithmetic, not enumeration)", "why_tests_cant": "the unit test checks 4 flags of one word", "anchors": ["shipgrav/utils.py:decode_dgs_status_bits"]}
{"id": "C07", "title": "DGS status decode outside 16 bits", "statement": "For stat >= 2^16 the flags are the 16 most significant bits of the word (so every flag is misaligned with its name), and for stat < 0 the first flag is the character '-', never '0' or '1'; hence flags agree with the low 16 bits for all words only in range.", "quantifier": "every Python int", "why_tests_cant": "unbounded integers", "anchors": ["shipgrav/utils.py:decode_dgs_status_bits"]}
{"id": "C08", "title": "DGS status decode of a DataFrame", "statement": "With a DataFrame the call inserts the 16 flag columns directly after the first column, in order, leaves all other columns and all row counts unchanged, row r of each flag column being the decode of row r of the status column; the caller's frame is the one modified; a second call on the same frame raises (duplicate column) and a missing key raises KeyError.", "quantifier": "every frame shape, key position, row count", "why_tests_cant": "every frame shape and repeated calls", "anchors": ["shipgrav/utils.py:decode_dgs_status_bits"]}
{"id": "C09", "title": "clean_ini_to_toml output path", "statement": "For every path p + '.ini' the output path is p + '.toml', whatever characters p ends with.", "quantifier": "every path ending in .ini", "why_tests_cant": "rstrip strips a character set, not a suffix; only a proof over all strings shows '.ini' is safe", "anchors": ["shipgrav/utils.py:clean_ini_to_toml"]}
{"id": "C10", "title": "clean_ini_to_toml writes one output line per input line", "statement": "On every text for which it does not raise, the output has exactly one line per input line in the same order (plus a final newline); section headers, comment lines and blank lines, booleans, numbers and already-quoted values are written unchanged after the textual substitutions; any other value is written as key= \"value\".", "quantifier": "every text", "why_tests_cant": "the line grammar is unbounded and no unit test covers this function", "anchors": ["shipgrav/utils.py:clean_ini_to_toml"]}
{"id": "C11", "title": "clean_ini_to_toml failure", "statement": "The conversion raises IndexError exactly when some line, after substitution, is non-empty, does not start with '[' or '#', and contains no '='; the output file then holds exactly the lines before it.", "quantifier": "every text", "why_tests_cant": "every text; crash point leaves a partial file", "anchors": ["shipgrav/utils.py:clean_ini_to_toml"]}
{"id": "C12", "title": "clean_ini_to_toml is idempotent", "statement": "Re-cleaning a produced text whose lines do not start with '$' reproduces it line for line (only the trailing newline is added again).", "quantifier": "every text without '$'-initial lines", "why_tests_cant": "quantifies over all texts", "anchors": ["shipgrav/utils.py:clean_ini_to_toml"]}
{"id": "C13", "title": "clean_ini_to_toml keeps trailing comments", "statement": "A comment that follows an unquoted string value on the same line survives the conversion.", "quantifier": "every line with an unquoted string value and a trailing comment", "why_tests_cant": "the code computes the comment after discarding it; only a proof shows it is lost for every such line", "anchors": ["shipgrav/utils.py:clean_ini_to_toml"]}
{"id": "C14", "title": "line picker behaves as a stack of picks", "statement": "Over every history of left clicks, right clicks, other buttons and mouse moves, the picked x, y and index lists stay the same length and equal the picks left on a stack by the click history; a right click with nothing picked raises and changes nothing.", "quantifier": "every finite event history", "why_tests_cant": "histories are unbounded", "anchors": ["shipgrav/utils.py:_SnappingCursor.on_mouse_click", "shipgrav/utils.py:_SnappingCursor.on_mouse_move"]}
{"id": "C15", "title": "picked points are nearest data points", "statement": "Every picked index is a valid row of the data, its time is at minimal distance from the clicked time (earliest row among ties), and the recorded coordinates are those of that row.", "quantifier": "every non-empty data frame, click position and history", "why_tests_cant": "all data and click positions", "anchors": ["shipgrav/utils.py:_SnappingCursor.on_mouse_click"]}
{"id": "C16", "title": "hovering snaps the cross-hair to the closest point", "statement": "Moving the mouse to x places the cross-hair on the data point whose x is closest to the mouse.", "quantifier": "every sorted series and mouse position", "why_tests_cant": "all series and positions", "anchors": ["shipgrav/utils.py:_SnappingCursor.on_mouse_move"]}
{"id": "C17", "title": "latlon_to_EN shape and edge masking", "statement": "For equal-length inputs of n > 10 points both outputs have n entries, exactly the first five and last five are NaN; unequal lengths or n <= 10 raise AssertionError.", "quantifier": "every pair of input lengths and contents", "why_tests_cant": "all lengths", "anchors": ["shipgrav/nav.py:latlon_to_EN"]}
{"id": "C18", "title": "latlon_to_EN differentiates polynomial tracks exactly", "statement": "If latitude (longitude) is a polynomial of degree <= 10 in the sample index, the unmasked north (east) velocity is freq times the meridian (parallel) radius of curvature factor times the exact derivative at that sample.", "quantifier": "every polynomial track of degree at most 10, every index, every freq", "why_tests_cant": "quantifies over all polynomials and positions", "anchors": ["shipgrav/nav.py:latlon_to_EN", "shipgrav/nav.py:tay10"]}
{"id": "C19", "title": "latlon_to_EN invariances", "statement": "A stationary track has zero velocity; adding a constant to all longitudes changes neither output; velocities scale linearly with freq; reversing the track in time negates the velocities.", "quantifier": "every track, offset and freq", "why_tests_cant": "all tracks", "anchors": ["shipgrav/nav.py:latlon_to_EN"]}
{"id": "C20", "title": "ENvel_to_course_heading is an exact polar decomposition", "statement": "speed*(sin heading, cos heading) = (ve, vn), speed >= 0, heading in (-180, 180]; speed 0 iff both components 0; heading 0 is north and 90 is east.", "quantifier": "every velocity pair", "why_tests_cant": "all real pairs including quadrant boundaries", "anchors": ["shipgrav/nav.py:ENvel_to_course_heading"]}
{"id": "C21", "title": "rotate_acceleration_EN_to_cl is a rotation", "statement": "The rotation preserves magnitude and dot products, is inverted by the opposite heading, composes additively in heading, and sends an acceleration along the heading of the ship's velocity to pure long acceleration with zero cross component.", "quantifier": "every heading and acceleration", "why_tests_cant": "all headings", "anchors": ["shipgrav/nav.py:rotate_acceleration_EN_to_cl", "shipgrav/nav.py:ENvel_to_course_heading"]}
{"id": "C22", "title": "GGA coordinates decode exactly", "statement": "For every well-formed GGA sentence (2-digit degrees + decimal minutes, N/S; 3-digit degrees + decimal minutes, E/W) after any prefix without the talker, the coordinates returned are sign*(degrees + minutes/60).", "quantifier": "every degree, minute string, hemisphere and prefix", "why_tests_cant": "the format space is unbounded; tests read one line per ship", "anchors": ["shipgrav/io.py:_navcoords"]}
{"id": "C23", "title": "one position per talker line, dropouts become NaN", "statement": "Position extraction returns exactly one (lon, lat) per line containing the talker, in file order, independent of all other lines; a talker line with an empty latitude or longitude field gives NaN for both; a talker line with both fields present, one of which contains a character that no number contains, makes the call raise ValueError; a talker line that breaks off before its fifth field, with no empty coordinate field, makes it raise too.", "quantifier": "every file and talker", "why_tests_cant": "all files", "anchors": ["shipgrav/io.py:_navcoords", "shipgrav/io.py:_clock_time"]}
{"id": "C24", "title": "GGA clock time decodes to the true time of day", "statement": "For every GGA time hhmmss.f the decoded hour, minute, second and microsecond equal the time the sentence states.", "quantifier": "every well-formed hhmmss.f field", "why_tests_cant": "wrong only for some fractional parts; the example files happen to avoid them", "anchors": ["shipgrav/io.py:_clock_time"]}
{"id": "C25", "title": "fixes keep their order in time", "statement": "If successive GGA sentences in a file carry increasing times, read_nav's rows keep that order.", "quantifier": "every file", "why_tests_cant": "needs particular fractions or a midnight crossing to fail", "anchors": ["shipgrav/io.py:_clock_time", "shipgrav/io.py:_navdate_Atlantis", "shipgrav/io.py:_navdate_Thompson", "shipgrav/io.py:read_nav"]}
{"id": "C26", "title": "timestamps combine logger date and GGA clock", "statement": "For ships whose date comes from the logger prefix the timestamp of a fix is the UTC instant (logger date, GGA time of day); it is the true fix instant exactly when the logger date equals the UTC date of the fix, and is off by exactly one day for a fix taken just after midnight but logged just before; a fix line without a logger date makes the call raise IndexError.", "quantifier": "every line, date and clock time", "why_tests_cant": "only lines around midnight expose it", "anchors": ["shipgrav/io.py:_navdate_Atlantis", "shipgrav/io.py:_navdate_NBP", "shipgrav/io.py:_navdate_Thompson"]}
{"id": "C27", "title": "Revelle fixes take the nearest preceding date", "statement": "For each Revelle fix the date used is that of the closest earlier line that starts with yyyy-mm-dd and lies after the previous fix line; if there is none, read_nav raises.", "quantifier": "every file layout", "why_tests_cant": "unbounded interleavings of date-bearing and talker lines", "anchors": ["shipgrav/io.py:_navdate_Revelle"]}
{"id": "C28", "title": "read_nav times are strictly increasing", "statement": "Whenever read_nav returns a frame, its time column is strictly increasing with no duplicates, whatever the order, overlap or duplication of the input files and lines.", "quantifier": "every list of files, any order and overlap", "why_tests_cant": "all file lists", "anchors": ["shipgrav/io.py:read_nav"]}
{"id": "C29", "title": "read_nav loses and invents no fixes", "statement": "Without decimation the set of times in the returned frame is exactly the set of timestamps in the files, and each row carries the coordinates read for the first line (in file-list order) having that timestamp, unless the date-line repair is triggered.", "quantifier": "every list of files", "why_tests_cant": "all file lists", "anchors": ["shipgrav/io.py:read_nav"]}
{"id": "C30", "title": "read_nav resamples to the requested rate", "statement": "The returned track is interpolated to the requested sampling interval.", "quantifier": "every sampling argument and file", "why_tests_cant": "argument is accepted and silently ignored; needs a for-all-arguments statement", "anchors": ["shipgrav/io.py:read_nav"]}
{"id": "C31", "title": "read_nav decimation", "statement": "With decimate = d >= 1 each file contributes exactly every d-th fix starting from its first (ceil(n/d) of n), before cross-file de-duplication; decimate 0 and 1 agree.", "quantifier": "every d and file", "why_tests_cant": "all d and lengths", "anchors": ["shipgrav/io.py:read_nav"]}
{"id": "C32", "title": "read_nav rejects what it cannot read with -999", "statement": "read_nav returns -999 exactly when the ship is unknown and no reader is supplied, or no talker is known or given, or the ship has no built-in reader for the talker, or a Ride-type file lacks the talker; a user-supplied reader is always used when given and an explicit talker always overrides the database.", "quantifier": "every ship name, talker and reader combination", "why_tests_cant": "all strings", "anchors": ["shipgrav/io.py:read_nav", "shipgrav/database.toml"]}
{"id": "C33", "title": "date-line crossings become continuous", "statement": "For a track whose true longitude moves at most 1 degree per fix and stays within (0, 360) around the date line, the longitudes read_nav returns differ from the true continuous track by one constant multiple of 360.", "quantifier": "every track and number of crossings", "why_tests_cant": "unbounded number of crossings", "anchors": ["shipgrav/io.py:_clean_180cross", "shipgrav/io.py:read_nav"]}
{"id": "C34", "title": "date-line repair is safe", "statement": "The repair never raises on any track (in particular never indexes out of range), changes only longitudes, keeps row count, and every longitude in [-180,180] that is not the middle of a repaired jump pair keeps its value modulo 360.", "quantifier": "every track with longitudes in [-180, 180] or NaN", "why_tests_cant": "all tracks", "anchors": ["shipgrav/io.py:_clean_180cross"]}
{"id": "C35", "title": "calendar conversion is order-preserving", "statement": "Converting (year, month, day) and (year, day-of-year) stamps to UTC seconds preserves order, is injective on valid dates, and the two encodings agree on the same day, leap years included.", "quantifier": "all valid dates of years 1..9999", "why_tests_cant": "leap-year and month-boundary cases over 10^4 years", "anchors": ["shipgrav/io.py:_navdate_NBP", "shipgrav/io.py:_navdate_Langseth", "shipgrav/io.py:_navdate_Atlantis"]}
{"id": "C36", "title": "BGM raw read scales counts row by row", "statement": "Every returned row has rgrav = scale*counts with counts the integer after the last ':' of the record, rows appear in file-list order, and reading a list of files equals concatenating the single-file reads.", "quantifier": "every list of files and scale", "why_tests_cant": "all files", "anchors": ["shipgrav/io.py:read_bgm_raw", "shipgrav/io.py:_bgmserial_Atlantis", "shipgrav/io.py:_bgmserial_Thompson"]}
{"id": "C37", "title": "BGM raw read dispatch", "statement": "read_bgm_raw returns -999 exactly when no scale is given and none is known for the ship, or when no reader is supplied and the ship has no built-in one and there is at least one file; a supplied scale or reader always wins; an empty file list otherwise raises.", "quantifier": "every ship, scale, reader, file list", "why_tests_cant": "all strings/combinations", "anchors": ["shipgrav/io.py:read_bgm_raw", "shipgrav/database.toml"]}
{"id": "C38", "title": "despike only removes rows", "statement": "Despiking never changes a counts value and never reorders rows: the result is a sub-sequence of the input with at most half as many rows removed as there are over-threshold jumps; if jumps number two or fewer, are odd in number or not adjacent in pairs, nothing is removed.", "quantifier": "every series and threshold", "why_tests_cant": "all series", "anchors": ["shipgrav/io.py:_despike_bgm_serial"]}
{"id": "C39", "title": "despike removes isolated spikes", "statement": "If a clean series (all steps and all two-apart steps within thresh/2-type bounds) is corrupted by isolated one-sample spikes that jump by more than thresh both ways, despiking returns exactly the clean samples.", "quantifier": "every clean series and every set of isolated spike positions", "why_tests_cant": "all spike placements; fails for exactly one spike", "anchors": ["shipgrav/io.py:_despike_bgm_serial"]}
{"id": "C40", "title": "Langseth laptop lines are kept iff they have 26 fields", "statement": "The Langseth DGS reader keeps exactly the lines with 26 comma-separated fields after an optional 'dgsdata <stamp>' prefix, in file order, picks the documented 16 columns from each, and returns an empty frame with the right columns when nothing qualifies.", "quantifier": "every file content", "why_tests_cant": "all malformed-line patterns", "anchors": ["shipgrav/io.py:_dgs_laptop_Langseth"]}
{"id": "C41", "title": "DGS reads concatenate", "statement": "read_dgs_laptop and read_dgs_raw on a list of files return the rows of the single-file reads in list order; a bare string path equals a one-element list; unsupported ships give -999 for laptop reads (when there is at least one file and no reader is supplied), never for raw reads.", "quantifier": "every file list, ship and reader", "why_tests_cant": "all lists", "anchors": ["shipgrav/io.py:read_dgs_laptop", "shipgrav/io.py:read_dgs_raw"]}
{"id": "C42", "title": "raw cross-coupling scaling", "statement": "With scale_ccp the four monitor columns ve, vcc, al, ax are multiplied by 1e-5 and no other column changes; without it nothing changes.", "quantifier": "every file and column", "why_tests_cant": "all frames", "anchors": ["shipgrav/io.py:read_dgs_raw"]}
{"id": "C43", "title": "raw timestamp handling", "statement": "For general raw files the date column is parsed from the 19th field when its first entry does not start with '1', otherwise from the text before the first blank of field 0 when that does not start with '$', otherwise absent; in all cases the other columns are untouched.", "quantifier": "every file", "why_tests_cant": "all files; year 2033+ posix stamps change branch", "anchors": ["shipgrav/io.py:_dgs_raw_general"]}
{"id": "C44", "title": "Sikuliaq raw extraction", "statement": "For each raw record the reader extracts the numbers of fields 1,2,3,8,9,10,11,14,15 of the $AT1M sentence exactly when the record has the $AT1M shape, otherwise NaN, one row per record.", "quantifier": "every record text", "why_tests_cant": "regular expression over all texts", "anchors": ["shipgrav/io.py:_dgs_raw_Sikuliaq"]}
{"id": "C45", "title": "read_other_stuff returns every tagged line", "statement": "The returned frame has one row for every line of the data file that contains the tag.", "quantifier": "every file and tag", "why_tests_cant": "fails only at the last line of the file", "anchors": ["shipgrav/io.py:read_other_stuff"]}
{"id": "C46", "title": "read_other_stuff field mapping", "statement": "Each returned row maps the comma-separated fields after '$TAG' to the yaml column names in order and keeps the text before the tag as 'mystery'; the tag may be given with or without '$'; a tag absent from the yaml or from the file raises AssertionError.", "quantifier": "every file, yaml format and tag", "why_tests_cant": "all files", "anchors": ["shipgrav/io.py:read_other_stuff"]}
{"id": "C47", "title": "tide time arguments", "statement": "For every UTC timestamp the tidal time arguments are the whole seconds since 1899-12-31 12:00 in units of 36525 days, and the hour of day in [0, 24); sub-second parts are ignored and the out-of-range adjustments in the code are never taken.", "quantifier": "every datetime", "why_tests_cant": "all datetimes", "anchors": ["shipgrav/grav.py:_convert_datetime_tidetime", "shipgrav/grav.py:longman_tide_prediction"]}
{"id": "C48", "title": "tide components add up", "statement": "The total tide equals the lunar plus the solar component at every point; outputs are per-point (point i depends only on lon, lat, time of point i); unequal input lengths raise AssertionError.", "quantifier": "all tracks", "why_tests_cant": "all tracks", "anchors": ["shipgrav/grav.py:longman_tide_prediction"]}
{"id": "C49", "title": "tide depends on longitude modulo 360", "statement": "Replacing any longitude by longitude + 360 leaves every tide output unchanged.", "quantifier": "all positions and times", "why_tests_cant": "all reals", "anchors": ["shipgrav/grav.py:longman_tide_prediction"]}
{"id": "C50", "title": "tide is always well defined", "statement": "For every representable datetime and position the tide computation never divides by zero or leaves the domain of arcsin, arccos or sqrt, so (in exact arithmetic) it always returns a number.", "quantifier": "every datetime in years 1..9999, every latitude and longitude", "why_tests_cant": "the singular set is measure zero and cannot be found or excluded by sampling", "anchors": ["shipgrav/grav.py:longman_tide_prediction"]}
{"id": "C51", "title": "tide is physically bounded", "statement": "At sea level the predicted tide never exceeds 0.5 mGal in magnitude.", "quantifier": "every datetime and position", "why_tests_cant": "a bound over a continuum", "anchors": ["shipgrav/grav.py:longman_tide_prediction"]}
{"id": "C52", "title": "Eotvos correction vanishes at rest", "statement": "For a stationary track at any latitude and any constant height the Eotvos correction is zero at every sample.", "quantifier": "all positions, heights, sampling rates, ellipsoids", "why_tests_cant": "all positions", "anchors": ["shipgrav/grav.py:eotvos_full"]}
{"id": "C53", "title": "Eotvos correction for motion along a parallel", "statement": "For constant latitude and height and constant longitude rate w, the correction is 1e5*((W+w)^2 - W^2)*cos(lat)*(r'*cos(lat-D)+h*cos(lat)), hence positive for eastward motion and increasing in eastward speed away from the poles.", "quantifier": "all latitudes, rates, heights", "why_tests_cant": "a formula over a continuum", "anchors": ["shipgrav/grav.py:eotvos_full"]}
{"id": "C54", "title": "Eotvos invariances and shape", "statement": "Adding a constant to all longitudes, or mirroring all latitudes about the equator, leaves the correction unchanged; the output has one value per input sample with the first and last values replicated from their neighbours; fewer than 3 samples raise.", "quantifier": "all tracks", "why_tests_cant": "all tracks", "anchors": ["shipgrav/grav.py:eotvos_full", "shipgrav/grav.py:center_diff"]}
{"id": "C55", "title": "Eotvos vertical component ignores the wdot typo", "statement": "The term that uses dlon where ddlon belongs has no effect on the returned correction: replacing it by the correct term gives the same output for every input.", "quantifier": "all tracks", "why_tests_cant": "equality of two programs over all inputs", "anchors": ["shipgrav/grav.py:eotvos_full"]}
{"id": "C56", "title": "center_diff exactness", "statement": "center_diff of order 1 is exact on samples of quadratics, order 2 on cubics, at every interior point for every sampling rate; both are linear and return n-2 points; any other order returns -999.", "quantifier": "all polynomials, lengths, rates", "why_tests_cant": "all polynomials and lengths", "anchors": ["shipgrav/grav.py:center_diff"]}
{"id": "C57", "title": "WGS84 normal gravity", "statement": "wgs_grav is even and 180-degree periodic in latitude, strictly increasing from equator to pole, and always between its equator value 978032.53359 and its pole value (below 983219 mGal).", "quantifier": "all latitudes", "why_tests_cant": "monotonicity over a continuum", "anchors": ["shipgrav/grav.py:wgs_grav"]}
{"id": "C58", "title": "second-order free-air correction", "statement": "The correction is 0 at height 0, negative and strictly decreasing in height for heights 0 < h up to 2000 km, even in latitude, and the free-water variant differs from the free-air one by exactly 0.0863491*h.", "quantifier": "all latitudes and heights", "why_tests_cant": "continuum", "anchors": ["shipgrav/grav.py:free_air_second_order"]}
{"id": "C59", "title": "cross-coupling uses every continuous segment", "statement": "When timestamps are supplied, every continuous stretch of at least 1000 samples contributes to the regression.", "quantifier": "every timestamp vector", "why_tests_cant": "needs data with gaps; the last segment is dropped for every such input", "anchors": ["shipgrav/grav.py:calc_cross_coupling_coefficients"]}
{"id": "C60", "title": "cross-coupling regression table size", "statement": "The regression table has sum over used segments of (length - 420) rows, used segments being those of length >= 1000; all six columns have the same length and column g is minus the processed faa.", "quantifier": "every input length and gap pattern", "why_tests_cant": "all gap patterns", "anchors": ["shipgrav/grav.py:calc_cross_coupling_coefficients"]}
{"id": "C61", "title": "cross-coupling table ignores linear trends", "statement": "Adding any linear trend a + b*i to any of the input series leaves the regression table unchanged (and a quadratic only adds a constant), because edges are trimmed enough.", "quantifier": "all series, all trends", "why_tests_cant": "all series", "anchors": ["shipgrav/grav.py:calc_cross_coupling_coefficients", "shipgrav/grav.py:tay10"]}
{"id": "C62", "title": "cross-coupling coefficients are recovered exactly", "statement": "If faa = trend - sum c_k*monitor_k and the processed monitors are linearly independent, ordinary least squares on the returned table yields exactly c_k.", "quantifier": "all series and coefficients", "why_tests_cant": "all series", "anchors": ["shipgrav/grav.py:calc_cross_coupling_coefficients"]}
{"id": "C63", "title": "up vectors are unit vectors", "statement": "Every column returned by up_vecs is a unit vector with positive up component; zero tilt gives (0,0,1).", "quantifier": "all inputs and lengths", "why_tests_cant": "all inputs", "anchors": ["shipgrav/grav.py:up_vecs", "shipgrav/grav.py:_calc_up_vecs"]}
{"id": "C64", "title": "no acceleration means level platform", "statement": "If the cross and long accelerations are zero (or NaN, or flagged off) everywhere, all up vectors are exactly (0,0,1), whatever the gravity, periods and damping.", "quantifier": "all lengths and parameters", "why_tests_cant": "all parameters", "anchors": ["shipgrav/grav.py:up_vecs"]}
{"id": "C65", "title": "tilt filter is stable", "statement": "For positive damping and platform period more than twice the sample interval the tilt filter has all poles strictly inside the unit circle, static gain omS^2/om0^2 - 1, and bounded drive gives bounded tilt.", "quantifier": "all periods, intervals and damping (0 stands for the default), except intervals of an odd multiple of half the Schuler period, 2533 s, where the filter has no value", "why_tests_cant": "continuum of parameters, unbounded time", "anchors": ["shipgrav/grav.py:_tilt_filter"]}
{"id": "C66", "title": "up_vecs overwrites its acceleration arguments", "statement": "After the call the caller's acceleration arrays have NaNs and flagged samples replaced by 0 and are otherwise unchanged; calling again with the same arrays gives the same result.", "quantifier": "all arrays and flags", "why_tests_cant": "aliasing effect for all inputs", "anchors": ["shipgrav/grav.py:up_vecs"]}
{"id": "C67", "title": "zero damping is replaced by the default", "statement": "Passing damping 0 behaves exactly as passing sqrt(2)/2; no undamped filter can be requested.", "quantifier": "all periods and intervals", "why_tests_cant": "equality for all parameters", "anchors": ["shipgrav/grav.py:_tilt_filter"]}
{"id": "C68", "title": "grav1d_padded: flat topography and linearity", "statement": "Flat topography gives zero anomaly at every point, the anomaly is linear in the density contrast, and the output has one value per input point.", "quantifier": "all lengths, spacings, levels, densities", "why_tests_cant": "all lengths", "anchors": ["shipgrav/grav.py:grav1d_padded"]}
{"id": "C69", "title": "grav1d_padded wavenumbers match the DFT", "statement": "The wavenumber used for DFT bin i is (2*pi/(N*dx))*min(i, N-i), so the inverse transform is real and nothing is lost by taking its real part.", "quantifier": "every profile length", "why_tests_cant": "fails only for odd lengths", "anchors": ["shipgrav/grav.py:grav1d_padded"]}
{"id": "C70", "title": "grav2d_folding: grids and folding", "statement": "With folding the call succeeds on every non-empty grid of shape (len(Y), len(X)) and returns that shape; without folding it raises whenever a dimension is odd and greater than 1.", "quantifier": "every grid size", "why_tests_cant": "all sizes", "anchors": ["shipgrav/grav.py:grav2d_folding"]}
{"id": "C71", "title": "grav2d_folding: physics invariants", "statement": "A flat surface gives zero, the result is linear in the density contrast, is real before taking the real part, and mirroring the grid mirrors the anomaly.", "quantifier": "all grids", "why_tests_cant": "all grids", "anchors": ["shipgrav/grav.py:grav2d_folding"]}
{"id": "C72", "title": "variable-density layer: linearity and additivity", "statement": "The layer anomaly is linear in the density grid, zero for uniform density, zero for a zero-thickness layer, and splitting a layer at any depth adds up exactly.", "quantifier": "all grids and depths", "why_tests_cant": "all grids", "anchors": ["shipgrav/grav.py:grav2d_layer_variable_density"]}
{"id": "C73", "title": "variable-density layer wavenumbers match the DFT", "statement": "The wavenumbers used for grid bin (i, j) are the signed DFT frequencies.", "quantifier": "every grid size and bin", "why_tests_cant": "off by one bin only; a single-value test passes", "anchors": ["shipgrav/grav.py:_kvalue"]}
{"id": "C74", "title": "half-space temperature is physical", "statement": "For age > 0 the temperature is 0 at the surface, strictly increasing with depth, strictly decreasing with age at depth > 0, always below Tm and tends to Tm at depth; subsidence grows as sqrt(age).", "quantifier": "all ages, depths, parameters", "why_tests_cant": "continuum", "anchors": ["shipgrav/grav.py:therm_halfspace"]}
{"id": "C75", "title": "isotherm depth inverts the half-space model", "statement": "For 0 < T < Tm, evaluating therm_halfspace at the depth returned by therm_Z_halfspace gives back T, and both report the same subsidence.", "quantifier": "all ages and isotherms", "why_tests_cant": "round trip over a continuum", "anchors": ["shipgrav/grav.py:therm_Z_halfspace", "shipgrav/grav.py:therm_halfspace"]}
{"id": "C76", "title": "age and distance inputs agree", "statement": "Calling any thermal function with time=True and age t Myr equals calling it with time=False and distance t*1e6*u (either sign), for every spreading rate u > 0.", "quantifier": "all ages, rates", "why_tests_cant": "continuum", "anchors": ["shipgrav/grav.py:therm_halfspace", "shipgrav/grav.py:therm_plate", "shipgrav/grav.py:therm_Z_halfspace", "shipgrav/grav.py:therm_Z_plate"]}
{"id": "C77", "title": "plate temperature boundary conditions", "statement": "therm_plate gives exactly 0 at z=0, Tm at z=zL0 and Tm for all deeper nodes, and between it is the ten-term cooling series.", "quantifier": "all grids and ages", "why_tests_cant": "all grids", "anchors": ["shipgrav/grav.py:therm_plate"]}
{"id": "C78", "title": "plate temperature never exceeds the mantle temperature", "statement": "therm_plate returns temperatures between 0 and Tm.", "quantifier": "all grids and ages", "why_tests_cant": "fails only near zero age", "anchors": ["shipgrav/grav.py:therm_plate"]}
{"id": "C79", "title": "plate subsidence", "statement": "Plate-model subsidence is non-decreasing in age, positive, and bounded by half of rhom*a*Tm*zL0/(rhom-rhow).", "quantifier": "all ages", "why_tests_cant": "continuum", "anchors": ["shipgrav/grav.py:therm_plate"]}
{"id": "C80", "title": "plate isotherm depth is the nearest grid node", "statement": "therm_Z_plate returns for each isotherm and position a grid depth whose temperature is at least as close to the isotherm as every other node, the shallowest such.", "quantifier": "all grids, isotherms, positions", "why_tests_cant": "all grids", "anchors": ["shipgrav/grav.py:therm_Z_plate"]}
{"id": "C81", "title": "crustal_thickness_2D recovers gravity", "statement": "With back=True and a taper that passes all wavenumbers, the recovered gravity equals the input at the same positions.", "quantifier": "all lengths and signals", "why_tests_cant": "fails by a one-sample circular shift for every length", "anchors": ["shipgrav/grav.py:crustal_thickness_2D"]}
{"id": "C82", "title": "crustal_thickness_2D orientation", "statement": "The thickness profile returned with back=False is in the same spatial order as the one returned with back=True.", "quantifier": "all signals", "why_tests_cant": "all signals", "anchors": ["shipgrav/grav.py:crustal_thickness_2D"]}
{"id": "C83", "title": "crustal_thickness_2D ignores the mean and is linear", "statement": "Adding a constant to the residual gravity does not change the thickness; the thickness is linear in the de-meaned residual and inversely proportional to the density contrast; wlarge <= wsmall raises AssertionError.", "quantifier": "all signals and parameters", "why_tests_cant": "all signals", "anchors": ["shipgrav/grav.py:crustal_thickness_2D"]}
{"id": "C84", "title": "crustal_thickness_2D wavenumbers match the DFT", "statement": "The wavenumber used for DFT bin i of n is (2*pi/(n*dx))*min(i, n-i).", "quantifier": "every grid size and bin", "why_tests_cant": "off by one everywhere; test compares one value to a stored output", "anchors": ["shipgrav/grav.py:crustal_thickness_2D"]}
{"id": "C85", "title": "read_bgm_rgs dispatch and columns", "statement": "read_bgm_rgs returns -999 for every ship other than Atlantis and NBP; otherwise one row per record with grav, lat, lon from blank-separated fields 3, 11, 12 and time from fields 1, 2, in file-list order.", "quantifier": "every ship and file list", "why_tests_cant": "all strings", "anchors": ["shipgrav/io.py:read_bgm_rgs"]}
{"id": "C86", "title": "Langseth fixes carry the logger's own stamp", "statement": "Each Langseth fix gets exactly the UTC instant written as yyyy:jjj:hh:mm:ss.f (one to six decimals) between the first pair of tabs after 'seapath', independently of the clock inside the sentence; one timestamp per talker line in file order.", "quantifier": "every valid stamp, leap years included, and every line around it", "why_tests_cant": "all dates, decimals and surrounding text", "anchors": ["shipgrav/io.py:_navdate_Langseth"]}
{"id": "C87", "title": "Ride and Sikuliaq fixes carry the logger's own stamp", "statement": "With talker INGGA a line with POSIX seconds before the sentence (anything without a $ may stand before them, if it does not end in a digit or a point) gets an instant less than a microsecond from it (exactly it with at most six decimals); with GPGGA a line with an ISO stamp (and no hyphen before it) gets that instant cut to microseconds; a line with the talker and no stamp raises IndexError; any other talker gets no timestamp. Numbers are in double precision.", "quantifier": "every stamp up to the year 2242, everything before it as described and every rest of line", "why_tests_cant": "all dates and fractions", "anchors": ["shipgrav/io.py:_navdate_Ride"]}
{"id": "C88", "title": "laptop readers pick the documented columns and build the instants", "statement": "For laptop files of Atlantis, Revelle, NBP, Ride and DGStest, of Sikuliaq (after its header of nineteen lines) and of Thompson, reading returns one row per record with each named column taken from its documented field, and date_time is the instant written in the record's date and time fields.", "quantifier": "every file of well-formed records, any number of them, any values", "why_tests_cant": "all column contents and all instants", "anchors": ["shipgrav/io.py:_dgs_laptop_general", "shipgrav/io.py:_dgs_laptop_Sikuliaq", "shipgrav/io.py:_dgs_laptop_Thompson", "shipgrav/io.py:read_dgs_laptop"]}
{"id": "C89", "title": "Thompson raw stamps", "statement": "For Thompson raw files each row holds the record's date, time, string and seventeen numbers under their names, and date_time is the instant of its date and time with the full fraction of a second; no auxiliary column is left over.", "quantifier": "every file of well-formed records", "why_tests_cant": "all instants and values", "anchors": ["shipgrav/io.py:_dgs_raw_Thompson"]}
{"id": "C90", "title": "tide uses the true zenith angles of moon and sun", "statement": "For every date and position the predicted tide is the sum of the vertical tidal accelerations of moon and sun (degree 2 and 3 for the moon, degree 2 for the sun, times Longman's elastic factor), where the zenith angles are those between the local vertical and the direction of the moon in its orbit inclined to the ecliptic with the given ascending node, and of the sun on the ecliptic; the mean longitudes are Schureman's to at least six digits.", "quantifier": "every datetime in years 1..9999, every position and altitude", "why_tests_cant": "the code works through the spherical triangle with I, nu, xi and alpha; a wrong quadrant or sign would show up only for some positions of the node", "anchors": ["shipgrav/grav.py:longman_tide_prediction"]}
{"id": "C91", "title": "cross-coupling smoothing is an average", "statement": "The low-pass filter applied to the double-differenced monitors and gravity has 200 non-negative symmetric weights that add up to one, so a processed value always lies between the smallest and the largest curvature of the samples it is made of.", "quantifier": "all series of all lengths", "why_tests_cant": "all series; sums of cosines and sines only sampled by tests", "anchors": ["shipgrav/grav.py:calc_cross_coupling_coefficients"]}
{"id": "C92", "title": "up vectors are the tilted vertical", "statement": "Column i of up_vecs is the vertical rotated by the cross and long tilts at sample i (rotation order alternating with the parity of i), the tangents of tilt being the response of the tilt filters, started from rest, to acceleration over gravity; missing or flagged accelerations and missing gravity count as zero drive.", "quantifier": "all arrays of one length with gravity nowhere zero, all filters", "why_tests_cant": "all inputs of all lengths", "anchors": ["shipgrav/grav.py:up_vecs", "shipgrav/grav.py:_calc_up_vecs"]}
{"id": "C93", "title": "platform tilt is causal", "statement": "Running up_vecs on the first m samples gives the first m columns of running it on all n samples.", "quantifier": "all arrays with gravity nowhere zero, all m <= n", "why_tests_cant": "all prefixes of all inputs", "anchors": ["shipgrav/grav.py:up_vecs"]}
{"id": "C94", "title": "half-space temperature solves the heat equation", "statement": "The temperature returned by therm_halfspace, as a function of age and depth, satisfies the heat equation with diffusivity k at every positive age and every depth, is zero at the surface, tends to Tm with depth, and tends to Tm at every depth > 0 as age goes to zero.", "quantifier": "all ages, depths and parameters", "why_tests_cant": "a differential equation on a continuum; a sample of values cannot settle it", "anchors": ["shipgrav/grav.py:therm_halfspace"]}
{"id": "C95", "title": "plate temperature solves the heat equation", "statement": "Within the plate the temperature returned by therm_plate satisfies the heat equation with diffusivity k, and with increasing age it tends to the linear profile Tm*z/zL0.", "quantifier": "all ages, depths and parameters", "why_tests_cant": "a differential equation on a continuum", "anchors": ["shipgrav/grav.py:therm_plate"]}
{"id": "C96", "title": "crustal thickness is real", "statement": "The crustal thickness returned by crustal_thickness_2D has no imaginary part.", "quantifier": "all signals", "why_tests_cant": "a test on one signal compares single real parts", "anchors": ["shipgrav/grav.py:crustal_thickness_2D"]}
{"id": "C97", "title": "the marker on the map follows the cross-hair", "statement": "Moving the mouse inside the time-series axes puts the marker on the map at the longitude and latitude of the data row whose time is nearest to the cross-hair; leaving the axes hides the cross-hair, and neither leaving nor clicking moves anything.", "quantifier": "every data set, every history of events, every mouse position", "why_tests_cant": "all histories; event handlers are not exercised by the tests", "anchors": ["shipgrav/utils.py:_SnappingCursor.on_mouse_move", "shipgrav/utils.py:_SnappingCursor.on_mouse_click"]}
{"id": "C98", "title": "the anomaly of a profile does not depend on the vertical datum", "statement": "For grav1d_padded, adding a constant to the topography and to the level of observation leaves the anomaly unchanged; so does adding a constant to all distances.", "quantifier": "every profile, level of observation, density and shift", "why_tests_cant": "an invariance over all profiles and shifts", "anchors": ["shipgrav/grav.py:grav1d_padded"]}
{"id": "C99", "title": "the anomaly of a surface does not depend on the vertical datum", "statement": "For grav2d_folding, adding a constant to the grid and subtracting it from the offset of the level of observation leaves the anomaly (or the exception) unchanged; for grav2d_layer_variable_density, adding a constant to the density leaves the anomaly unchanged.", "quantifier": "every grid, option and shift", "why_tests_cant": "an invariance over all grids and shifts", "anchors": ["shipgrav/grav.py:grav2d_folding", "shipgrav/grav.py:grav2d_layer_variable_density"]}
{"id": "C100", "title": "accelerations along the track", "statement": "For a ship with speed s and course phi, the course from ENvel_to_course_heading and the rotation rotate_acceleration_EN_to_cl turn the derivatives of the east and north velocity into a cross component s*phi' (positive to starboard) and a long component s'; the velocity itself has no cross component.", "quantifier": "every smooth motion with positive speed", "why_tests_cant": "a statement about all motions and about derivatives", "anchors": ["shipgrav/nav.py:ENvel_to_course_heading", "shipgrav/nav.py:rotate_acceleration_EN_to_cl"]}
{"id": "C101", "title": "level error of the platform", "statement": "In dgs_ccp_calc.py the level error is normal gravity less what the tilted meter senses: gravity projected on the upward direction of the platform, and each horizontal acceleration projected with its own component of that direction.", "quantifier": "every series of normal gravity, cross and long accelerations", "why_tests_cant": "a mixed-up component cannot be seen from the shape of the result, and the example prints none of it", "anchors": ["example-scripts/dgs_ccp_calc.py:level_error", "shipgrav/grav.py:up_vecs"]}
{"id": "C102", "title": "positions at the times of the gravimeter", "statement": "In the example scripts a gravimeter row gets the position on the straight line between the two navigation fixes around its time; at the time of a fix it gets that fix, between two fixes a position between theirs, and for a ship in uniform motion the exact position at every time.", "quantifier": "every track with at least two fixes at increasing times, every time", "why_tests_cant": "all tracks and all times", "anchors": ["example-scripts/dgs_bgm_comp.py:gps_lon_int", "example-scripts/dgs_ccp_calc.py:gps_lon_int"]}
{"id": "C103", "title": "dropouts in the navigation are removed", "statement": "The cleaning in the example scripts removes exactly the rows that are dropouts, so that no step of more than a degree to the east remains.", "quantifier": "every navigation table", "why_tests_cant": "depends on where the dropouts stand and on the hemisphere; the example data contain one case", "anchors": ["example-scripts/dgs_bgm_comp.py:bad_inds", "example-scripts/dgs_ccp_calc.py:bad_inds"]}
{"id": "C104", "title": "free-air anomaly of the example scripts", "statement": "The anomaly is the reading less normal gravity plus Eotvos correction plus tide at the place and time of the sample; full_field is the same without normal gravity; for a ship at rest only normal gravity and tide are left; tracks of less than three samples raise IndexError.", "quantifier": "every track, all readings, all valid times", "why_tests_cant": "all tracks; signs and alignment of four corrections over whole series", "anchors": ["example-scripts/dgs_bgm_comp.py:faa", "example-scripts/dgs_ccp_calc.py:faa", "shipgrav/grav.py:eotvos_full", "shipgrav/grav.py:longman_tide_prediction", "shipgrav/grav.py:wgs_grav"]}
{"id": "C105", "title": "the cross-coupling correction removes the monitors", "statement": "If the anomaly is a quadratic trend less a combination of the five monitors at the same time, the fit in dgs_ccp_calc.py recovers the combination and the corrected anomaly is the trend.", "quantifier": "every set of monitors that are independent after the processing, every combination, every least-squares solution", "why_tests_cant": "unknown coefficients over all data; one data set can be fitted well with wrong coefficients", "anchors": ["example-scripts/dgs_ccp_calc.py:faa_ccp", "shipgrav/grav.py:calc_cross_coupling_coefficients"]}
{"id": "C106", "title": "segments between picks", "statement": "In interactive_line_pick.py each pair of picks gives one file with the rows from the earlier to the later pick, both included; an odd last pick is left out; no file overwrites another.", "quantifier": "every data set and every history of mouse events", "why_tests_cant": "all histories of events; the script is interactive and has no tests", "anchors": ["example-scripts/interactive_line_pick.py:segs", "shipgrav/utils.py:_SnappingCursor"]}
{"id": "C107", "title": "residual mantle Bouguer anomaly", "statement": "In RMBA_calc.py the residual anomaly is the free-air anomaly less the gravity of sea floor, sediment base, crust base and 27 isotherms with density contrasts that lead from water to hot mantle; with constant depth, sediment thickness and age it is the free-air anomaly; without thermal expansion it is the mantle Bouguer anomaly.", "quantifier": "every profile with ages of zero or more", "why_tests_cant": "all profiles; the script has no tests and no reference values", "anchors": ["example-scripts/RMBA_calc.py:MBA", "example-scripts/RMBA_calc.py:RMBA", "shipgrav/grav.py:therm_Z_halfspace", "shipgrav/grav.py:grav1d_padded"]}
{"id": "C108", "title": "a converted ini file says the same", "statement": "clean_ini_to_toml turns an ini file into a TOML file from which a TOML reader reads the same sections, keys and values in the same order: numbers with their value, true/false in either case as booleans, quoted and unquoted texts as strings; comments after # or // say nothing.", "quantifier": "every ini file made of blank lines, comment lines, section lines and key = value lines with any blanks and tabs", "why_tests_cant": "all files; the output is text that only a TOML reader gives a meaning to", "anchors": ["shipgrav/utils.py:clean_ini_to_toml"]}
{"id": "C109", "title": "smoothing of the free-air anomaly", "statement": "The low-pass filter of the example scripts replaces every sample by a mean with 480 symmetric weights of sum one, applied forwards and backwards to the series continued by odd reflection: as many samples come out as go in, straight lines stay what they are, sums are filtered summand by summand, oscillations keep their phase; 1440 samples or fewer raise.", "quantifier": "every series, every frequency, amplitude and phase", "why_tests_cant": "all series and all frequencies; a numerical comparison shows neither linearity nor zero phase", "anchors": ["example-scripts/dgs_bgm_comp.py:filtfilt", "example-scripts/dgs_raw_comp.py:filtfilt", "example-scripts/RMBA_calc.py:filtfilt", "example-scripts/interactive_line_pick.py:filtfilt"]}
{"id": "C110", "title": "trimmed anomalies are free of end effects", "statement": "The samples that the scripts keep of a smoothed series (`[taps:-taps//2]` for plots and picked lines, `[taps:-taps]` in RMBA_calc.py) do not depend on where the series was cut: a longer series gives the same values there.", "quantifier": "every series of more than 1440 samples and every longer series that contains it", "why_tests_cant": "quantifies over what was recorded before and after the series", "anchors": ["example-scripts/RMBA_calc.py:taps", "example-scripts/interactive_line_pick.py:taps", "example-scripts/dgs_bgm_comp.py:taps"]}
{"id": "C111", "title": "extension of a line beyond its ends", "statement": "RMBA_calc.py continues the line at both ends along the geodesic through its end points, at the mean spacing of the data, for as far as fits into the length of the line but not farther than 500 km; all data points are part of the extended line, in order.", "quantifier": "every line with end points apart, any geodesic functions", "why_tests_cant": "all lines; distances and directions come from another library", "anchors": ["example-scripts/RMBA_calc.py:l_ext", "example-scripts/RMBA_calc.py:n_ext", "example-scripts/RMBA_calc.py:ilat_frnt", "example-scripts/RMBA_calc.py:ilat_back"]}
{"id": "C112", "title": "smoothed anomaly put into the tracked line", "statement": "In RMBA_calc.py the smoothed anomaly of the ship replaces the tracked satellite anomaly at the points of the extended line where it was measured, sample by sample, except for the first and the last 480 samples, which the filter disturbs; all other points keep the tracked value, and nothing raises.", "quantifier": "every extended line, every number of samples", "why_tests_cant": "all lengths of segment and extension; an index off by one is not visible", "anchors": ["example-scripts/RMBA_calc.py:track", "example-scripts/RMBA_calc.py:ffaa"]}
{"id": "C113", "title": "line at even spacing", "statement": "RMBA_calc.py interpolates each column to 1000 evenly spaced distances from the first to the last point: every value is on the straight line between the two points next to that distance, so no new extremes come in and a column that changes evenly with distance is met exactly; nothing raises and no value is missing as long as only the first point is at distance zero.", "quantifier": "every line, also one that turns back, and every column", "why_tests_cant": "all lines and columns", "anchors": ["example-scripts/RMBA_calc.py:xpts_line", "example-scripts/RMBA_calc.py:interp1d"]}
{"id": "C114", "title": "motion-sensor series at the times of the gravimeter", "statement": "In mru_coherence.py the series compared with the monitors is, at a time between two samples of the motion sensor, on the straight line between the largest of the last 1000 values at the one and at the other sample, and keeps the last such value after the end; it is 0 before the 1000th sample and, after a missing value, until 1000 further samples have come; from the 1000th sample on it stays within the range of the sensor.", "quantifier": "every sensor series with increasing times, with or without gaps, and every time of the gravimeter", "why_tests_cant": "all series and all sampling ratios; the handling of gaps and ends is not visible in the plotted coherence", "anchors": ["example-scripts/mru_coherence.py:mru_interp"]}
{"id": "C115", "title": "clean-up of serial files", "statement": "dgs_raw_comp.py writes for every serial file that has no cleaned file yet a cleaned file beside it, with exactly the lines that contain AT1M and have 19 fields, unchanged and in order; it changes or removes no other file; running it again changes nothing (in particular an existing cleaned file is not brought up to date when the serial file has changed); it raises exactly if a serial file that has not been cleaned does not exist; the cleaned files can be read by read_dgs_raw as the table of the proper records.", "quantifier": "every set of files, every list of paths, every content", "why_tests_cant": "all contents of all files; effects on files that are not in the list", "anchors": ["example-scripts/dgs_raw_comp.py:dgs_raw_clean", "example-scripts/dgs_raw_comp.py:opath", "example-scripts/dgs_raw_comp.py:dgs_files_raw"]}
{"id": "C116", "title": "calibration of the raw channels", "statement": "In dgs_raw_comp.py each calibrated channel is counts times its gain (divided by 8388607 for the 24-bit channels) plus its offset, gain and offset being those of that channel in the ini file of the meter; the gravity gets the bias of the ship on top; NaN stays NaN and the other columns stay what they were; a missing gain or offset raises KeyError.", "quantifier": "every table of counts and every meter configuration", "why_tests_cant": "all configurations; gains or offsets taken from another channel give plausible numbers", "anchors": ["example-scripts/dgs_raw_comp.py:grav_cal", "example-scripts/dgs_raw_comp.py:electemp_cal", "example-scripts/dgs_raw_comp.py:meter_conf", "shipgrav/utils.py:clean_ini_to_toml"]}
{"id": "C117", "title": "accelerations of the ship from its positions", "statement": "In dgs_ccp_calc.py the accelerations across and along the track are the tenth-order differences of the velocities from the positions, in mGal, resolved into the components to the right of the velocity and along it; they are missing at the first ten and the last ten samples and nowhere else; a ship at rest has none and no level error; on a parallel, going east with polynomial progress up to degree ten, the acceleration along the track is exact and there is none across.", "quantifier": "every track of more than ten positions, every sampling rate", "why_tests_cant": "all tracks; a swapped or turned component is not visible in the fit", "anchors": ["example-scripts/dgs_ccp_calc.py:acc_cross", "example-scripts/dgs_ccp_calc.py:gps_eacc", "shipgrav/nav.py:latlon_to_EN", "shipgrav/nav.py:rotate_acceleration_EN_to_cl", "shipgrav/nav.py:ENvel_to_course_heading"]}
{"id": "C118", "title": "coherence of motion sensor and monitors", "statement": "The coherence in mru_coherence.py is between 0 and 1, does not depend on units, zero points or order of the two series, is 1 for a series and itself in other units, needs at least 384 samples to say anything (with fewer it is 1 for any two series), and a missing value in either series leaves no value at all.", "quantifier": "every pair of series of two samples or more", "why_tests_cant": "all series; the bound is an inequality over all data", "anchors": ["example-scripts/mru_coherence.py:coherence"]}
{"id": "C119", "title": "from unsorted tables to the free-air anomaly", "statement": "In interactive_line_pick.py, dgs_raw_comp.py and mru_coherence.py the free-air anomaly comes out in order of time whatever the order of the rows (and so of the files): the reading plus the bias less normal gravity plus Eötvös correction plus tide, each for the position on the straight line between the fixes around the time of the reading.", "quantifier": "every navigation table and every gravimeter table without repeated times, in every order", "why_tests_cant": "all orders of all tables", "anchors": ["example-scripts/interactive_line_pick.py:sort_values", "example-scripts/interactive_line_pick.py:gps_lon_int", "example-scripts/interactive_line_pick.py:faa", "example-scripts/mru_coherence.py:faa", "example-scripts/dgs_raw_comp.py:faa"]}
{"id": "C120", "title": "correction for motion where readings are missing", "statement": "The Eötvös correction in the example scripts is that of the speed of the ship, also where readings of the gravimeter are missing.", "quantifier": "every ship in steady motion along a parallel, every pattern of gaps", "why_tests_cant": "all patterns of gaps; a spike at a gap is smoothed and looks like gravity", "anchors": ["example-scripts/interactive_line_pick.py:eotvos_corr", "shipgrav/grav.py:eotvos_full", "shipgrav/grav.py:_center_diff"]}
{"id": "C121", "title": "gravity series against the columns of rock", "statement": "The Fourier series of grav1d_padded and grav2d_folding converges to the attraction of the rock between the mean level and the interface: for each wavenumber the attraction of a column is the integral over its depth of exp(-k (distance to the observer)). The error of a truncated series is bounded explicitly, goes down geometrically once the observer is more than twice the relief away, and goes to zero as more terms are taken.", "quantifier": "every zero-mean profile with an even number of points; every grid, folded (the default), and every number of terms", "why_tests_cant": "a limit over the number of terms, for all reliefs; no closed form to compare with in a test", "anchors": ["shipgrav/grav.py:grav1d_padded", "shipgrav/grav.py:grav2d_folding"]}
{"id": "C122", "title": "Eötvös correction as inertial acceleration", "statement": "The Eötvös correction is the downward acceleration, in inertial space, of a ship that moves over the turning ellipsoid in excess of that of a ship at rest at the same place (centripetal terms of sphere, flattening and rotation): exactly on a sphere and for motion along a parallel, otherwise to third order in the flattening.", "quantifier": "every track with constant acceleration in longitude and latitude, every flattening up to 1/100", "why_tests_cant": "compares the formula with second derivatives of the position in space, for all tracks", "anchors": ["shipgrav/grav.py:eotvos_full"]}
{"id": "C123", "title": "answer of the platform to swell", "statement": "With a sinusoidal horizontal acceleration of any period longer than two samples, the tilt settles to a swing of the same period, whose size and phase are those of the platform at the frequency (2/dt) tan(pi dt/T); for periods much shorter than that of the platform the tilt is at most 2(1+2 damping)/m of the drive when the frequency is m times that of the platform.", "quantifier": "every period, size and phase, every platform period and damping", "why_tests_cant": "limit for infinitely long series, all parameters", "anchors": ["shipgrav/grav.py:_tilt_filter", "shipgrav/grav.py:up_vecs"]}
{"id": "C124", "title": "half-space: subsidence from the temperatures", "statement": "The subsidence returned by therm_halfspace is the isostatic response to thermal contraction of rock with exactly the temperatures returned beside it: the integral over all depths of a (Tm - T), times rhom/(rhom - rhow).", "quantifier": "every positive age, every list of depths, all parameters", "why_tests_cant": "an improper integral over depths that are not in the array", "anchors": ["shipgrav/grav.py:therm_halfspace"]}
{"id": "C125", "title": "plate: subsidence from the temperatures", "statement": "The subsidence returned by therm_plate is the isostatic response to thermal contraction of rock with exactly the temperatures returned beside it.", "quantifier": "every age, every list of depths, all parameters", "why_tests_cant": "an integral over depths that are not in the array, at all ages", "anchors": ["shipgrav/grav.py:therm_plate"]}
{"id": "C126", "title": "track times in double precision", "statement": "With POSIX times as double precision numbers, read_nav returns the same rows in the same order as with exact times, raises and gives -999 in the same cases, no two rows are merged and none change places, time_sec is the double nearest to each instant (within half a microsecond), and the column stamps is the instant itself to the microsecond.", "quantifier": "every ship, every talker, every supplied reader, every decimation, all files whose stamps lie within 272 years of 1970", "why_tests_cant": "2^53 times a second can be written down; rounding shows in few of them", "anchors": ["shipgrav/io.py:read_nav"]}
{"id": "C127", "title": "positions in double precision", "statement": "Positions decoded from GGA sentences in double precision are within a fraction of a micrometre of the exact ones, NaN in the same places and with the same errors raised; coordinates written differently (minutes with up to nine decimals) are neither merged nor put in the wrong order by rounding.", "quantifier": "every file and talker; every well-formed sentence", "why_tests_cant": "all coordinates; rounding errors add up differently for each", "anchors": ["shipgrav/io.py:_navcoords"]}
{"id": "C128", "title": "Gaussian filter in double precision", "statement": "With every operation rounded to double precision, each output sample of gaussian_filter differs from the exact filter by at most exp((2 fl + 264)/2^52) - 1 times the largest reading, so by less than a part in 10^9 for filters up to a million samples; the same inputs are rejected.", "quantifier": "every series, every filter length, every exponential function right to about two units in the last place", "why_tests_cant": "a bound for all series and lengths; the exact result is not available to a test", "anchors": ["shipgrav/utils.py:gaussian_filter", "shipgrav/utils.py:_gaussian_coeffs"]}
{"id": "C129", "title": "order and splitting of navigation files do not matter", "statement": "read_nav gives the same track for the files in any order (any decimation) when fixes of different files at one time agree, and the same track for a file and for its two parts, cut at any line break, when nothing is decimated and both parts hold fixes with dates.", "quantifier": "every ship and talker, every list of files read as fixes, every permutation, every cut", "why_tests_cant": "all orders and all cuts of all files", "anchors": ["shipgrav/io.py:read_nav", "shipgrav/io.py:_navcoords", "shipgrav/io.py:_clock_time"]}
{"id": "C130", "title": "a series of meter files is the same as one file", "statement": "However the records of a gravimeter are divided over files (at line breaks, no file empty), the readers return the columns and values they return for one file with all the records: BGM serial files of the four ships, RGS files, DGS laptop files, DGS raw files.", "quantifier": "all well-formed records, all ways of dividing them over any number of files", "why_tests_cant": "all divisions of all files; decisions taken on the first record or the first hundred lines differ between divisions", "anchors": ["shipgrav/io.py:read_bgm_raw", "shipgrav/io.py:read_bgm_rgs", "shipgrav/io.py:read_dgs_laptop", "shipgrav/io.py:read_dgs_raw", "shipgrav/io.py:_dgs_raw_general"]}
{"id": "C131", "title": "rounding errors of the tilt filter do not accumulate", "statement": "The recursive filter behind up_vecs, run in double precision with coefficients computed in double precision, gives in every sample the tilt of the exact filter up to an explicit bound times the largest drive; the bound depends on the period, the sampling interval and the damping, not on the length of the record. For platforms of 4 to 300 samples a period, at least half critically damped, it is below one part in 20000.", "quantifier": "all records of any length, all periods up to 5000 s with at least four samples a period, all dampings up to critical, all libraries whose tan, sqrt and square are right to about one or two units in the last place", "why_tests_cant": "every sample feeds back into all later ones, so an error could grow with the length of the record; tests run finite records with one library", "anchors": ["shipgrav/grav.py:up_vecs", "shipgrav/grav.py:_tilt_filter"]}
{"id": "C132", "title": "latitude corrections in double precision", "statement": "wgs_grav computed in double precision is within 1e-8 mGal of the exact formula at every latitude; free_air_second_order is within 1e-11 mGal for heights up to 10 km, in air and in water; their rounded sum, the latitude correction, is within 2e-8 mGal.", "quantifier": "all latitudes from -90 to 90 degrees and all heights up to 10 km that are rational numbers, all libraries whose sin, sqrt and square are right to about one or two units in the last place", "why_tests_cant": "there are about 2^63 double precision latitudes; tests compare a few values and one library", "anchors": ["shipgrav/grav.py:wgs_grav", "shipgrav/grav.py:free_air_second_order"]}
{"id": "C133", "title": "Eötvös correction in double precision", "statement": "eotvos_full computed in double precision on a track sampled at most once a second is within 1e-4 mGal of the exact correction at every sample (at most ten times a second: within 1e-2 mGal), for positions on the globe, heights up to 10 km, rates up to a hundredth of a degree per second and accelerations of latitude up to a thousandth of a degree per second squared; at rest it is exactly zero.", "quantifier": "all tracks of at least three samples with rational coordinates within these limits, all sampling rates up to the limit, all libraries whose sin, cos and arctan are right up to 2^-51 and whose square is right to one unit in the last place", "why_tests_cant": "second differences of coordinates lose most of their digits, and how much of that reaches the result depends on the track and on the library", "anchors": ["shipgrav/grav.py:eotvos_full", "shipgrav/grav.py:center_diff"]}
{"id": "C134", "title": "Tide prediction in double precision", "statement": "longman_tide_prediction computed in double precision is within 1e-3 mGal of the tide of Longman (1959) at every second of the years 1900 to 2099 and every place; within 1e-7 mGal unless the moon's node is within 1e-6 radians of longitude 180 degrees (about three minutes every 18.6 years), and within 1e-9 mGal unless it is within 2e-3 radians (about four days). The solar part is always within 1e-11 mGal. Inputs of different lengths raise AssertionError; otherwise there is one output per point.", "quantifier": "all dates and times of day from 1900 to 2099, all rational longitudes up to 720 degrees, latitudes up to 90 degrees and altitudes up to 10 km in size, all libraries whose trigonometric functions are right up to 2^-51 and whose square root, square and cube are right to one unit in the last place", "why_tests_cant": "the half-angle formula for the moon's longitude divides by a number that goes to zero when the node passes longitude 180 degrees; no test samples those seconds, and a test has only one library", "anchors": ["shipgrav/grav.py:longman_tide_prediction", "shipgrav/grav.py:_convert_datetime_tidetime"]}
{"id": "C135", "title": "Free-air anomaly of the scripts in double precision", "statement": "faa and full_field of the example scripts, computed in double precision on a track sampled at most once a second, are within 1.1e-3 mGal of reading minus normal gravity plus Eötvös correction plus tide, evaluated exactly, at every sample; within 1e-4 mGal unless the moon's node is within 1e-6 radians of longitude 180 degrees at that time.", "quantifier": "all tracks of at least three samples with positions on the globe, rates up to a hundredth of a degree per second and accelerations of latitude up to a thousandth of a degree per second squared, all readings up to 2e6 mGal, all times from 1900 to 2099, all sampling rates up to one per second, all libraries right to about two units in the last place", "why_tests_cant": "the errors of four functions add up; a test sees one track and one library and has no exact value to compare with", "anchors": ["example-scripts/dgs_bgm_comp.py:faa", "example-scripts/dgs_ccp_calc.py:faa", "shipgrav/grav.py:wgs_grav", "shipgrav/grav.py:free_air_second_order", "shipgrav/grav.py:eotvos_full", "shipgrav/grav.py:longman_tide_prediction"]}
{"id": "C136", "title": "Positions at the times of the gravimeter in double precision", "statement": "The scripts give a gravimeter reading between two navigation fixes the position on the straight line through these fixes at its exact instant, up to the distance covered in 2^-20 s and a part in 2^48 of the largest coordinate, although the instants are turned into rounded seconds and every step of the interpolation is rounded. A ship at rest gets exactly its position at every time. At the instant of a fix the position need not be that fix to the last bit.", "quantifier": "all lists of two or more fixes with different instants in increasing order within 272 years of 1970, all coordinates, all instants of readings between two of the fixes, all speeds between these", "why_tests_cant": "which pair of fixes is used and how the rounding of three instants combines depends on every bit of the times; a test has no exact value to compare with", "anchors": ["example-scripts/dgs_bgm_comp.py:gps_lon_int", "example-scripts/dgs_ccp_calc.py:gps_lon_int", "example-scripts/dgs_raw_comp.py:gps_lon_int", "example-scripts/mru_coherence.py:gps_lon_int", "example-scripts/interactive_line_pick.py:gps_lon_int"]}
{"id": "C137", "title": "Sensitivity of the free-air anomaly to errors of position", "statement": "If two sets of positions of a gentle track differ by at most e degrees at every sample, the free-air anomalies and full fields computed from them differ by at most e (1.6e6 s^2 + 2.5e6 s + 400) mGal at every sample, s being the number of samples per second. At one sample per second errors of e degrees do reach 1.6e6 e mGal.", "quantifier": "all pairs of tracks of at least three samples with rates up to a thousandth of a degree per second and accelerations of latitude up to a thousandth of a degree per second squared, all readings, all times, all sampling rates, all errors", "why_tests_cant": "the largest amplification is a supremum over all tracks and all errors; a test tries a few perturbations", "anchors": ["example-scripts/dgs_bgm_comp.py:faa", "example-scripts/dgs_ccp_calc.py:faa", "example-scripts/interactive_line_pick.py:faa", "shipgrav/grav.py:eotvos_full", "shipgrav/grav.py:longman_tide_prediction", "shipgrav/grav.py:wgs_grav"]}
{"id": "C138", "title": "Tables of the readers to free-air anomaly in double precision", "statement": "From navigation and gravimeter tables in any order of rows, the scripts produce one anomaly per reading in the order of time. Computed in double precision throughout (seconds of the time stamps, interpolation of positions, corrections, sums), it is within 6e-3 mGal of the exact anomaly at the point of the straight line between the neighbouring fixes where the ship is at the exact instant of the reading.", "quantifier": "all tables in any order with different instants, fixes on the globe within 272 years of 1970 at most a thousandth of a degree per second apart, at least three readings between fixes in 1900 to 2099, rates at the readings up to 9e-4 degrees per second, accelerations of latitude up to 9e-4 degrees per second squared, readings up to 2e6 mGal, at most one sample per second, all libraries right to about two units in the last place", "why_tests_cant": "the Eötvös correction differentiates positions twice and so amplifies every rounding of time and position; a test has no exact value to compare with", "anchors": ["example-scripts/interactive_line_pick.py:faa", "example-scripts/interactive_line_pick.py:gps_lon_int", "example-scripts/dgs_bgm_comp.py:faa", "shipgrav/grav.py:eotvos_full", "shipgrav/grav.py:longman_tide_prediction", "shipgrav/grav.py:wgs_grav"]}
{"id": "C139", "title": "Text files of the Ride to free-air anomaly in double precision", "statement": "From the text of navigation files (GPGGA sentences with the stamp of the logger) and of DGS laptop files, in any order, interactive_line_pick.py produces one free-air anomaly per gravimeter record, in the order of time. Read, parsed, interpolated and corrected in double precision, it is within 6e-3 mGal of the exact anomaly for the decimal numbers written in the files, taken at the exact instant of the record on the straight line between the neighbouring fixes.", "quantifier": "all sets of files whose lines with the talker are well-formed sentences with one to three decimals of a second, with other lines between them, in any order of files and lines; all positions up to latitude 88, fixes at different instants at most 1000 s and 9e-4 degrees per second apart; all laptop files of valid records of 1900 to 2099, at least three, between fixes, in any order; rates at the records up to 9e-4 degrees per second; readings up to 1e6 mGal; at most one sample per second; all number parsers with relative error up to 2^-50 and all libraries right to about two units in the last place", "why_tests_cant": "the claim is about every digit of every file at once: each step rounds (minutes to degrees, stamp to seconds, interpolation, corrections) and the Eötvös correction amplifies the errors of position; a test compares with one stored result of the same code", "anchors": ["example-scripts/interactive_line_pick.py:faa", "example-scripts/interactive_line_pick.py:gps_nav", "example-scripts/interactive_line_pick.py:dgs_data", "shipgrav/io.py:read_nav", "shipgrav/io.py:_navdate_Ride", "shipgrav/io.py:read_dgs_laptop"]}
{"id": "C140", "title": "Blank lines and comments in DGS files are ignored", "statement": "A line of blanks anywhere in a DGS laptop file (behind the header of 19 lines for the Sikuliaq) or raw file has no effect on what the readers return, whether that is a table or an error; in raw files of the Sikuliaq, whose separator is a tab, the line must not begin with a tab. In raw files of the Sikuliaq a line that holds only a comment (#) has no effect, and neither has a comment behind a record.", "quantifier": "all ships, all lists of files with any text, well-formed or not, all positions of the line in any of the files, all lines of spaces and tabs (also the empty line), all comment texts, with and without scaling of the monitors, every parser of dates", "why_tests_cant": "sample files have at most one blank line in one place; the claim is about every place in every file, also files that are rejected", "anchors": ["shipgrav/io.py:read_dgs_laptop", "shipgrav/io.py:_dgs_laptop_general", "shipgrav/io.py:_dgs_laptop_Sikuliaq", "shipgrav/io.py:_dgs_laptop_Thompson", "shipgrav/io.py:_dgs_laptop_Langseth", "shipgrav/io.py:read_dgs_raw", "shipgrav/io.py:_dgs_raw_general", "shipgrav/io.py:_dgs_raw_Thompson", "shipgrav/io.py:_dgs_raw_Sikuliaq"]}
{"id": "C141", "title": "The Gaussian filter passes long waves and removes swell", "statement": "For a wave of any frequency, amplitude and phase the Gaussian filter gives, behind its warm-up, the same wave delayed by half the filter length (in whole samples) and multiplied by a gain that depends only on the frequency and the filter length. The gain is never above 1 in size. With 24 or more samples of filter, a wave whose period is ten or more filter lengths changes by at most one percent of its amplitude; with 240 or more samples, waves with periods from 2 to 10 samples are reduced to less than a fiftieth.", "quantifier": "all filter lengths (from 24, 240 where said), all frequencies, amplitudes, phases, all lengths of the series above the filter length, all samples behind the warm-up", "why_tests_cant": "a test can filter a few waves with a few lengths; the claim is a bound on the frequency response for all of them", "anchors": ["shipgrav/utils.py:gaussian_filter", "shipgrav/utils.py:_gaussian_coeffs"]}
{"id": "C142", "title": "Corrugated surfaces and density waves give attenuated waves", "statement": "A surface whose depth is a product of cosines (half waves that fit the grid with folding, whole waves of any phase without) gives with one power of the series the same pattern with reversed sign, with the attraction of a slab as thick as the amplitude times exp(-(depth+dz) times wavenumber). For any surface whose relief is less than its mean depth plus dz, raising the number of powers beyond P changes the result by at most a bound that falls like (relief/depth)^P. A layer with a plane wave of density (fewer than about n/2 - 1 cycles along each axis) gives the same wave with amplitude 2 pi G A (exp(-k z1) - exp(-k z2))/k.", "quantifier": "all grid sizes (even without folding), all numbers of waves that fit, both signs for the layer, all amplitudes, phases, mean depths, spacings, density contrasts, levels, points of the grid, numbers of powers", "why_tests_cant": "a test compares one or two surfaces with a tabulated result; the claim is the whole transfer function and a convergence rate", "anchors": ["shipgrav/grav.py:grav2d_folding", "shipgrav/grav.py:grav2d_layer_variable_density", "shipgrav/grav.py:_kvalue"]}
{"id": "C143", "title": "The low-pass filter of the scripts keeps long waves and removes swell", "statement": "At one sample per second the scripts' smoothing (480 Blackman-windowed weights, cut-off at a period of 240 s, forwards and backwards) multiplies a wave of period P, more than 478 samples from the ends, by one factor that depends only on P. For P of 960 s or more the factor differs from 1 by at most (700 s / P)^2; for P of 2 s or more it is at most (P / 96 s)^2 and at most (P / 94 s)^6; for P from 2 s to 20 s it is below 1/100000.", "quantifier": "all periods in the stated ranges, amplitudes, phases, lengths of the record above 1440 samples, samples at least 479 from both ends", "why_tests_cant": "a test can filter a few waves; the claim is a bound on the frequency response of two passes of 480 weights for every period", "anchors": ["example-scripts/dgs_bgm_comp.py", "example-scripts/dgs_ccp_calc.py", "example-scripts/dgs_raw_comp.py", "example-scripts/mru_coherence.py", "example-scripts/interactive_line_pick.py", "example-scripts/RMBA_calc.py"]}
{"id": "C144", "title": "Blank lines in BGM files", "statement": "A line of blanks anywhere in a BGM serial file has no effect on what read_bgm_raw returns, whether that is a table or an error, provided it does not begin with a space on Atlantis and Revelle (whose separator is a space) and, on Langseth, stands behind the first 100 lines or the file has at most 99 other lines. The same holds for RGS files if the line does not begin with a space. On Atlantis and Revelle a line of blanks that begins with a space makes read_bgm_raw raise, wherever it stands.", "quantifier": "all ships, scale factors, lists of files with any text, well-formed or not, all positions of the line in any of the files, all lines of spaces and tabs, every parser of dates", "why_tests_cant": "sample files have at most one blank line in one place; the claim is about every place in every file, also files that are rejected", "anchors": ["shipgrav/io.py:read_bgm_raw", "shipgrav/io.py:_bgmserial_Atlantis", "shipgrav/io.py:_bgmserial_Thompson", "shipgrav/io.py:_bgmserial_Revelle", "shipgrav/io.py:_bgmserial_Langseth", "shipgrav/io.py:read_bgm_rgs"]}
{"id": "C145", "title": "Counts scaled in double precision", "statement": "With the scaling in double precision read_bgm_raw returns -999, raises, or returns the same rows, columns and order as with exact numbers; for every count below 2^53 rgrav is a double precision number within 2^-51 (relative) of scale factor times count, equal to it when factor and product are double precision numbers (so always on the Langseth for counts up to 2^50), and a missing count gives a missing gravity. With a positive factor the count is the whole number nearest to rgrav over factor, and larger counts have larger gravity.", "quantifier": "all ships, scale factors, user functions and lists of files; all counts up to 2^49", "why_tests_cant": "rounding errors depend on the bits of factor and count; a test sees only those it picks, and a comparison with a tolerance does not show that different counts stay different", "anchors": ["shipgrav/io.py:read_bgm_raw", "shipgrav/database.toml"]}
{"id": "C146", "title": "Date-line repair in double precision", "statement": "With all arithmetic in double precision the date-line repair raises on no column and keeps its length and its NaNs; it does what the exact repair (C34) does to within 2^-42 degrees, provided no step left after joining the two sides is within 1e-12 of one degree. A continuous track in (0, 360) recorded in (-180, 180] is given back to within 2^-42 degrees up to one full turn for the whole track, and within 52 degrees of the date line it is given back bit for bit. read_nav with times, positions and repair in double precision returns the fixes of the files in order of time, the first of equal times, and uses the repair exactly when a rounded step exceeds one degree.", "quantifier": "all columns of longitudes and NaN of any length in [-180, 180]; all tracks with steps up to one degree (less 1e-12 away from the date line); all ships with a built-in reader and all lists of files that can be read, with times within 272 years of 1970", "why_tests_cant": "whether a rounded difference falls on the other side of one degree, and how the rounding of the modulus and of the mean adds up, depends on the bits of the positions; a test with a few tracks and a tolerance does not bound it", "anchors": ["shipgrav/io.py:_clean_180cross", "shipgrav/io.py:read_nav"]}
{"id": "C147", "title": "Layer gravity is Newton's law", "statement": "The anomaly grav2d_layer_variable_density gives at a point of the grid is the attraction, by Newton's law, of the infinite layer between the two depths with the continued density less its mean: the integral over the whole layer of density times vertical component of the inverse-square law. What is left out is the attraction 2πG·density·thickness of the uniform layer with the mean density.", "quantifier": "all densities that are a mean plus any number of waves, in any direction and with any phase, that fit the grid periodically and have fewer than about half as many waves as points along each axis; all grids and spacings; all depths 0 ≤ z1 ≤ z2; every point of the grid", "why_tests_cant": "the other side of the equation is an integral over an infinite body; a test compares with a quadrature over a cut-off body at a few points and cannot separate a wrong factor from cut-off and discretisation errors", "anchors": ["shipgrav/grav.py:grav2d_layer_variable_density"]}
{"id": "C148", "title": "The anomaly of a surface is Newton's law", "statement": "The anomaly grav2d_folding gives at a point of the grid is the attraction, by Newton's law, of the mass between the surface and its mean depth (the integral over the whole infinite body of the vertical component of the inverse-square law), except for an error of at most the attraction of a slab as thick as the relief H times (H/c)^npower/(1 - H/c), c being the mean depth below the observer. Units: density in g/cm³, depths in m, spacing in km, anomaly in mGal.", "quantifier": "all surfaces that are a mean depth plus any number of waves resolved by the grid in the highest power used — periodic over the grid with any phase without folding, of the mirrored kind with folding; all even grid sizes (any size with folding), spacings, densities, numbers of terms and observer heights above the relief; every point of the grid", "why_tests_cant": "Parker's series and its convergence are an analytic identity between an infinite integral and Fourier sums; a test compares with a quadrature over a cut-off body at a few points, where cut-off, discretisation and truncation errors hide wrong factors", "anchors": ["shipgrav/grav.py:grav2d_folding"]}
{"id": "C149", "title": "The predicted tide is Newton's law", "statement": "The lunar and solar effects longman_tide_prediction returns are 1.1575 (= 1 + h2 - 3/2 k2) times the upward part of the Newtonian pull of moon and sun at the place of observation less their pull at the centre of the earth, within 0.00011 mGal for the moon and 0.000005 mGal for the sun; the bodies stand where Schureman's elements put them.", "quantifier": "every date and time of the years 1 to 9999, every longitude and latitude, altitudes up to 100 km", "why_tests_cant": "a comparison with published tide values at some instants cannot bound the error of the truncated series at all instants and places, nor separate a wrong third-order term from errors of the ephemeris", "anchors": ["shipgrav/grav.py:longman_tide_prediction"]}
{"id": "C150", "title": "Free-air correction and normal gravity belong together", "statement": "The gradient of free_air_second_order is Bruns' gradient -γ(1/M+1/N) - 2ω² of the normal gravity γ that wgs_grav gives on the WGS84 ellipsoid, within 0.000012 mGal/m, and its quadratic term is 3γ/a² within 4e-10 mGal/m²; with free_water the gradient is smaller by 4πGρ with ρ a density of sea water.", "quantifier": "all latitudes and heights", "why_tests_cant": "the two functions have independent tables of constants; tests at sample latitudes do not bound their disagreement everywhere, and the relation to curvature and rotation is not an output", "anchors": ["shipgrav/grav.py:free_air_second_order", "shipgrav/grav.py:wgs_grav"]}
{"id": "C151", "title": "Tide at several altitudes", "statement": "With an array of altitudes longman_tide_prediction gives every point the tide at its own altitude; an array with one altitude (or one repeated value) is the same as that number; one place and instant with several altitudes gives the tide at each; any other number of altitudes raises ValueError, unequal track lengths AssertionError.", "quantifier": "all tracks and all arrays of altitudes", "why_tests_cant": "all lengths of the four arrays have to agree on how numpy combines them; tests use the default altitude 0", "anchors": ["shipgrav/grav.py:longman_tide_prediction"]}
{"id": "C152", "title": "Accuracy of velocities and of the Eötvös correction on smooth tracks", "statement": "For any track whose coordinates are smooth functions of time, sampled at a fixed rate: the velocities of latlon_to_EN differ from radius of curvature times the true rate of the angle by at most the radius times 0.0046 K / freq^10 (K bounds the eleventh derivative within five samples); center_diff differs from the first (second) derivative by at most K/(6 samp²) (K/(12 samp²)) with K a bound of the third (fourth) derivative within one sample; and the Eötvös correction differs from 100000 times the downward acceleration in space in excess of that at rest by terms of third order in the flattening plus an explicit bound in those truncation errors.", "quantifier": "all tracks with 11 (3 and 4) continuous derivatives, all sampling rates, all track lengths, all inner samples, all spheroids with flattening at most 1/100", "why_tests_cant": "the error of a difference formula on arbitrary functions is an inequality over an infinite-dimensional set; tests compare a few tracks with stored values", "anchors": ["shipgrav/nav.py:latlon_to_EN", "shipgrav/grav.py:center_diff", "shipgrav/grav.py:eotvos_full"]}
{"id": "C153", "title": "Theoretical gravity is that of the level ellipsoid WGS84", "statement": "Let W be any gravity potential on and outside the WGS84 ellipsoid (half axis 6378137 m, flattening 1/298.257223563, GM 3986004.418e8 m³/s², rate 7.292115e-5/s) whose gravitational part satisfies Laplace's equation outside and behaves like that of the mass GM far away, and which is constant on the ellipsoid. Such a W exists and is unique. At every latitude and longitude wgs_grav returns its downward derivative along the normal at the surface, in mGal, within 0.000001.", "quantifier": "all such potentials, all latitudes and longitudes", "why_tests_cant": "the reference is a boundary value problem over all potentials; a test compares three numbers with stored values, copied constants with wrong digits would pass within its tolerance", "anchors": ["shipgrav/grav.py:wgs_grav"]}
{"id": "C154", "title": "Free-air gradient is that of the level ellipsoid WGS84", "statement": "Above any level ellipsoid (field as in C153) gravity along the normal decreases with height, at the surface, by γ(1/M + 1/N) + 2ω² per unit of height, M and N the radii of curvature of the ellipsoid (Bruns' formula), whatever the masses inside. For the constants of WGS84 the derivative of free_air_second_order at height 0 equals that rate, in mGal per metre, within 0.000012 at every latitude.", "quantifier": "all ellipsoids, masses, rates of rotation and fields; all latitudes and longitudes", "why_tests_cant": "the reference is the second derivative of the solution of a boundary value problem; tests compare one stored number", "anchors": ["shipgrav/grav.py:free_air_second_order"]}
{"id": "C155", "title": "Small relief on a profile acts as a sheet of mass", "statement": "For relief of small height ε·d about a level b, the anomaly of grav1d_padded is to first order in ε that of a sheet of mass density times relief at level b: each wave of wavenumber k of the padded profile is continued upward to the observer by exp(-k(zlev - b)) and nothing else, whatever level heights are counted from.", "quantifier": "all numbers of points, coordinates, relief shapes, levels b, observer levels and densities", "why_tests_cant": "a statement about the derivative of the output with respect to the input for every shape; tests compare one profile", "anchors": ["shipgrav/grav.py:grav1d_padded"]}
{"id": "C156", "title": "Plate model against the plate that cools", "statement": "Let T be any temperature of a plate of thickness zL0 that obeys the heat equation with diffusivity k, is 0 at the top and Tm at the base after time 0 and tends to Tm in the mean of squares at time 0. Such a T exists and is unique. At every age above 0 the temperatures of therm_plate differ from T by at most Tm·2/(11π)·q^121/(1-q^23), and its subsidence is at least that of the isostatic column above T and exceeds it by at most 4/(49π²)·q^49/(1-q^32) of the scale rhom·a·Tm·zL0/(rhom-rhow), where q = exp(-(π/zL0)²·k·t). With the default values: 4 degrees and 18 m from 1 Myr on, 0.002 degrees from 3 Myr on, 3 cm from 5 Myr on. At age 0 the subsidence returned is between 190 and 200 m with the default values, while that above T tends to 0.", "quantifier": "all solutions T, positive thicknesses and diffusivities, mantle temperatures and expansions not below 0, rock denser than water, ages and depths in the plate", "why_tests_cant": "the reference is the solution of an initial and boundary value problem, an infinite series; tests compare with numbers computed from the same few terms", "anchors": ["shipgrav/grav.py:therm_plate"]}
{"id": "C157", "title": "Half-space model against the rock that cools", "statement": "Let T be any bounded temperature at depths z ≥ 0 and times t > 0 that obeys the heat equation with diffusivity k, is 0 at the top and tends to Tm in the mean of squares over every finite depth as t tends to 0. Such a T exists and is unique. At every positive age therm_halfspace returns exactly T at every depth and exactly the isostatic subsidence above T, and therm_Z_halfspace returns, for every isotherm between 0 and Tm, the one depth at which T has that temperature.", "quantifier": "all solutions T, positive diffusivities, mantle temperatures, densities, expansions, positive ages, depths and isotherms", "why_tests_cant": "the reference is the solution of an initial and boundary value problem among all bounded functions; tests compare with stored numbers", "anchors": ["shipgrav/grav.py:therm_halfspace", "shipgrav/grav.py:therm_Z_halfspace"]}
{"id": "C158", "title": "Plate model and half-space model against each other", "statement": "A plate that cools is at all times and depths at least as hot as a half-space that cools, and hotter by no more than the half-space has lost at the depth of the base of the plate. So at every positive age the temperature of therm_plate is at least that of therm_halfspace less Tm·2/(11π)·q^121/(1-q^23) and exceeds it by at most that much and Tm·(2/zL0)·√(kt/π)·exp(-zL0²/(4kt)). The subsidence of therm_halfspace is at least that above the plate, and that of therm_plate exceeds it by at most 4/(49π²)·q^49/(1-q^32) of the scale rhom·a·Tm·zL0/(rhom-rhow). With the default values the temperatures of both functions agree to 7.5 degrees at all depths from 2 to 20 Myr.", "quantifier": "all positive thicknesses, diffusivities and ages, mantle temperatures and expansions not below 0, rock denser than water, depths not below 0 in the plate and below", "why_tests_cant": "two functions by different formulae (an infinite sum of sines, an error function) compared at all ages and depths", "anchors": ["shipgrav/grav.py:therm_plate", "shipgrav/grav.py:therm_halfspace"]}
{"id": "C159", "title": "Plate isotherms against the plate that cools", "statement": "A plate that cools grows hotter with depth at all times, so it has each temperature between 0 and Tm at exactly one depth. The depth that therm_Z_plate returns is within one grid spacing of it, at every age at which twice the contribution of the terms beyond the tenth is less than the rise of temperature of the half-space over one spacing at the base. With the default values this holds from 6 Myr on: every isotherm is right to 100 m.", "quantifier": "all positive thicknesses, diffusivities, mantle temperatures, ages, isotherms, grids within the plate that contain the true depth", "why_tests_cant": "the reference is the depth of an isotherm of the solution of an initial and boundary value problem", "anchors": ["shipgrav/grav.py:therm_Z_plate", "shipgrav/grav.py:therm_plate"]}
{"id": "C160", "title": "Velocities, course and rotation in double precision", "statement": "With every operation and every constant rounded to double precision, latlon_to_EN still rejects exactly the same inputs and gives NaN at exactly the same samples; its north velocities are within 1e-6 m/s and its east velocities within 2e-6 m/s of the exact ones, times the sampling frequency in Hz. ENvel_to_course_heading gives the course to 2e-13 degrees and the speed to 6 parts in 2^52, at all velocities; rotate_acceleration_EN_to_cl gives each component to 1e-14 of the sum of the sizes of the accelerations.", "quantifier": "all tracks with latitudes in [-90, 90] and longitudes in [-360, 360], all sampling frequencies, all velocities, all headings in [-360, 360] and accelerations, and all libraries whose functions have the stated accuracy, whatever the order in which np.convolve adds", "why_tests_cant": "rounding errors of a chain of some thirty operations, bounded over all tracks and all admissible libraries", "anchors": ["shipgrav/nav.py:latlon_to_EN", "shipgrav/nav.py:ENvel_to_course_heading", "shipgrav/nav.py:rotate_acceleration_EN_to_cl"]}
{"id": "C161", "title": "Thermal models in double precision", "statement": "With every operation rounded to double precision, the temperatures of therm_halfspace are within 12/2^52 of the mantle temperature of the exact ones, and the isotherms of therm_Z_halfspace within 16/2^52 of their depth plus the diffusion length; the subsidence of both has a relative error of at most 15/2^52. The temperatures of therm_plate are within 2^-43 of the mantle temperature, its subsidence has a relative error of at most 2^-42, although differences are taken in both. Values are missing at the same places, and the same calls raise the same exceptions.", "quantifier": "all lists of non-negative ages or of distances from an axis that spreads, all lists of non-negative depths, all isotherms from 0 up to but without the mantle temperature, all parameters with positive diffusivity and plate thickness and densities that differ, and all libraries whose functions have the stated accuracy", "why_tests_cant": "rounding errors of ten exponentials times sines with arguments of any size, and of the inverse error function near its pole, bounded over all inputs and all admissible libraries", "anchors": ["shipgrav/grav.py:therm_halfspace", "shipgrav/grav.py:therm_Z_halfspace", "shipgrav/grav.py:therm_plate"]}
{"id": "C162", "title": "Isotherms of the plate in double precision", "statement": "With every operation rounded to double precision, including those of np.arange, therm_Z_plate searches a grid with the number of nodes asked for, up to 3 parts in 2^52 of it, and with nodes that are off by at most 7·r·(minz+zsp)/2^52 at node r. Each depth it returns is that of a node, and the exact temperature of the plate there is as close to the isotherm as at any other node, up to 2^-41 of the mantle temperature and 3 parts in 2^52 of the distance. A zero spacing, an empty range of depths or equal densities raise as in exact arithmetic.", "quantifier": "all lists of non-negative ages or of distances from an axis that spreads, all isotherms, all grids that start at a double not below zero with positive spacing, all parameters with positive plate thickness, non-negative diffusivity and densities that differ, and all libraries whose functions have the stated accuracy", "why_tests_cant": "a minimum over rounded values can be taken at another node than the exact one; how much worse that node can be is a statement about all grids and isotherms", "anchors": ["shipgrav/grav.py:therm_Z_plate"]}
{"id": "C163", "title": "Cross-coupling coefficients when the anomaly has a signal of its own", "statement": "Let the anomaly be a gravity signal minus a combination of the five monitors, and let the processed monitors be apart by l: every combination of them with squared coefficients adding up to one varies by at least l (root mean square) about any constant. If the curvature of the signal is everywhere within ε of a constant, every least-squares solution of the table of calc_cross_coupling_coefficients has coefficients that differ from the true ones by at most ε/l (root sum square). For a signal with twelve continuous derivatives sampled at freq Hz, with second derivative at most M, the error is at most (M + 0.0106 K/freq^9 + 0.0046 L/freq^10)/(freq² l), K and L bounding derivatives 11 and 12; for a wave of amplitude A and ω ≤ 1 radians per sample it is at most 1.02 A ω²/l. Processed values of a smooth signal are averages of its second derivative with the weights of the low-pass filter, up to the same truncation. Independent monitors are always apart by some l > 0.", "quantifier": "all lengths, gap patterns, monitors, coefficients, signals, least-squares solutions", "why_tests_cant": "how far geology can bias the fitted coefficients is a bound over all signals and all monitors", "anchors": ["shipgrav/grav.py:calc_cross_coupling_coefficients"]}
{"id": "C164", "title": "The database of ships", "statement": "database.toml is a readable TOML document. For every name of a ship, the talker read from it is the one read_nav uses, and the scale factor read from it is the one read_bgm_raw uses. A ship has biases exactly if it has a talker; the DGS bias is always a value, and the BGM bias is a value, not the mark -999, exactly if the ship has a BGM scale factor. The calibration factor is 2^23-1. A line `ship = 'talker'` added at the end of the table of talkers gives a new ship its talker and changes nothing for the others, nor scales and biases; a second line for a ship makes the database unreadable.", "quantifier": "all names of ships, listed or not; all added ships with bare names, all talkers without quotes and control characters, all spacings around the equal sign", "why_tests_cant": "that no other ship is affected, and that the tables agree with each other, is a statement about all names and all added lines", "anchors": ["shipgrav/database.toml", "shipgrav/io.py:read_nav", "shipgrav/io.py:read_bgm_raw", "example-scripts/dgs_bgm_comp.py"]}
{"id": "C165", "title": "The free-air anomaly is that of the earth", "statement": "Let a ship cruise (smooth track, at most 22 m/s and 0.1 m/s² to the north) over an earth whose theoretical gravity is that of the level ellipsoid WGS84, and let its gravimeter read, at a fixed rate of at least once a second, gravity less the downward acceleration of the ship in space in excess of that at rest, less the pull of moon and sun by Newton's law. Then the corrections of the example scripts bring out gravity less theoretical gravity (and the full field brings out gravity) within 0.005 mGal at every sample but the first and the last; noise of the readings comes through unchanged. From tables of fixes and readings in any order, with fixes up to δ seconds apart that are wrong by up to e degrees, the anomaly comes out within 0.005 mGal plus ε(1.6e6 s² + 2.5e6 s + 400) mGal, ε = e + A δ²/8, where A bounds the second derivatives of longitude and latitude in degrees/s² (so ε = e on a steady course) and s is the number of samples per second.", "quantifier": "every such earth and gravity along the track, every smooth track within the limits, every sampling rate of at least 1 Hz, all valid times, all noise, all fixes within their error, all orders of the rows", "why_tests_cant": "real data have no known true anomaly, and tests of single corrections cannot show that signs, units and ellipsoids of all of them fit together", "anchors": ["shipgrav/grav.py:wgs_grav", "shipgrav/grav.py:free_air_second_order", "shipgrav/grav.py:eotvos_full", "shipgrav/grav.py:longman_tide_prediction", "example-scripts/interactive_line_pick.py", "example-scripts/dgs_bgm_comp.py"]}
{"id": "C166", "title": "The smoothed free-air anomaly is that of the earth, in a seaway", "statement": "The scripts' smoothing of a record of one sample per second that is the sum of a smooth signal (second differences of at most K), an error of at most ε and any number of waves with periods of 2 s or more gives back the signal within 14300 K + 1.7 ε plus, for each wave of amplitude A and period P, |A| (P / 94 s)^6, at all samples 480 or more from both ends. So for a ship that cruises as in C165, whose gravimeter also reads the accelerations of waves, the smoothed free-air anomaly is that of the earth within 1.7 (0.005 mGal + ε) + 14300 K and what is left of the waves; from tables of fixes and readings the errors of position add as in C165.", "quantifier": "all smooth signals, errors and finite sets of waves within the limits, all lengths above 1440 samples, all tracks, times, gravity and orders of rows as in C165", "why_tests_cant": "a test can run a few made-up records; the claim bounds the outcome for every seaway, every anomaly and every track, through corrections and filter together", "anchors": ["example-scripts/dgs_bgm_comp.py", "example-scripts/interactive_line_pick.py", "example-scripts/RMBA_calc.py", "shipgrav/grav.py:eotvos_full", "shipgrav/grav.py:wgs_grav", "shipgrav/grav.py:longman_tide_prediction"]}
{"id": "C167", "title": "Smoothing in double precision", "statement": "The scripts' smoothing of a record of one sample per second, with the weights, their scaling, the continuation at the ends and both passes of the filter in double precision, differs at every sample by no more than 1.2e-11 times the largest value of the record from what exact arithmetic gives (2e-8 mGal for anomalies up to 1000 mGal), and raises the same ValueError for records of no more than 1440 samples. So the doubles that come out of a smooth signal with errors and waves (C166) are the signal, within the bound of C166 and 1.2e-11 times the largest value.", "quantifier": "all records of doubles of any length and size, all libraries whose sine and cosine are right to 2^-51 on [-7, 7] and whose sums and inner products are right up to (n + 1) 2^-51 times the sum of the sizes of the terms, in any order of additions", "why_tests_cant": "a test has no exact values to compare with, and cannot bound the errors of two passes with 480 rounded weights for every record and every order of additions", "anchors": ["example-scripts/dgs_bgm_comp.py", "example-scripts/dgs_ccp_calc.py", "example-scripts/dgs_raw_comp.py", "example-scripts/mru_coherence.py", "example-scripts/interactive_line_pick.py", "example-scripts/RMBA_calc.py"]}
{"id": "C168", "title": "From tables of doubles to the anomaly of the earth", "statement": "The example scripts' chain in double precision (timestamps of the fixes, sorting, interpolation of positions, tide, theoretical gravity, Eötvös correction) gives, for every reading, the anomaly that the same chain in exact arithmetic gives on the exact times, within 6e-3 mGal. So for a ship that cruises as in C165, with one reading a second, the doubles are the anomaly of the earth within 0.011 mGal, the noise of the reading, and 4100400 mGal per degree of error of position (errors of the fixes plus A δ²/8 for gaps of δ seconds, A as in C165). After smoothing, also in double precision, they are that anomaly within 1.7 (0.011 + ε) + 14300 K, what is left of the waves (C166), the same errors of position, and 1.2e-11 times the largest anomaly of the record. The same holds from the text files of the Ride (C139), with 0.012 in place of 0.011 and the numbers that are written in the files.", "quantifier": "all tables of doubles in any order of rows, all text files of the Ride in any order of files and lines, all tracks, times, gravity, noise and waves within the limits, all libraries of elementary functions within their error bounds", "why_tests_cant": "tests compare the doubles with other doubles; this bounds the distance of what the whole chain prints from gravity itself, for every cruise", "anchors": ["example-scripts/dgs_bgm_comp.py", "example-scripts/interactive_line_pick.py", "example-scripts/RMBA_calc.py", "shipgrav/grav.py:eotvos_full", "shipgrav/grav.py:wgs_grav", "shipgrav/grav.py:longman_tide_prediction", "shipgrav/io.py:read_nav", "shipgrav/io.py:read_dgs_laptop"]}
{"id": "C169", "title": "Gravity of a profile in double precision", "statement": "grav1d_padded computes with doubles and with Fourier transforms, powers and exponentials of a library. Its result is the five-term Parker series of the profile with carried-on ends (C68) up to rounding: for n points, topography of at most H, density contrast rho and a height of observation D above the mean, the error of every point is at most 100 · 2πG|rho| · 5n · H · r⁴ (2⁻³⁶ + (n+12) r 2⁻⁴⁹), where r is the larger of 1 and H/D. For 1000 points, 3 km of relief, 2700 kg/m³ and r = 1 this is less than 3e-5 mGal.", "quantifier": "all profiles of at least two points with n+12 at most 2⁴⁰/r and a spacing that is not absurdly small against D, all spacings, heights and densities, all libraries within their error bounds", "why_tests_cant": "tests compare a few profiles with recorded doubles; the powers of large topography are multiplied with powers of large wavenumbers before the exponential takes them down again, and only a proof shows that no profile loses its digits there", "anchors": ["shipgrav/grav.py:grav1d_padded"]}
{"id": "C170", "title": "Gravity of a surface in double precision", "statement": "grav2d_folding computes with doubles and with Fourier transforms, powers, exponentials and sums of a library. Its result has the shape of the grid and is the Parker series of C71 up to rounding, with folding for every grid and without for even dimensions: for depths of at most H that differ from their mean by at most B (in cm), D cm below the observer, npower at most 20, every point has an error of at most 2πG·1000·|drho| · MN · B · ρ r^P 2⁻³⁵, where M × N is the (folded) grid, ρ the larger of 1 and 100 H/B, r the larger of 1 and B/D, P the larger of 1 and npower. For 100 × 100 points with folding, relief of 500 m at 2500 m and a contrast of 1 g/cm³ this is less than 2e-4 mGal.", "quantifier": "all grids of at least one point with ρr at most 2²⁰ and spacings that are not absurdly small against D, all density contrasts, levels and npower up to 20, folding or not, all libraries within their error bounds", "why_tests_cant": "tests compare one grid with recorded doubles; cancellation in the distance from the mean, high powers of relief and wavenumber and the exponential interact, and only a proof covers all grids and powers", "anchors": ["shipgrav/grav.py:grav2d_folding"]}
{"id": "C171", "title": "Gravity of a layer of variable density in double precision", "statement": "grav2d_layer_variable_density computes with doubles and with Fourier transforms, powers, roots and exponentials of a library. Its result has the shape of the grid and is the value of C72 up to rounding: for M × N points, densities of at most R kg/m³, sides of at most L km and depths that are not negative, every point has an error of at most 6.673e-3 · MN · R · L · 2⁻⁴⁰ mGal, whatever the depths. For 100 × 100 points of 3300 kg/m³ over 100 km this is less than 3e-5 mGal.", "quantifier": "all grids, densities, spacings other than zero of either sign, depths z1, z2 ≥ 0 in any order, all libraries within their error bounds", "why_tests_cant": "the difference of two nearly equal exponentials is divided by a small wavenumber; that the digits lost there never matter, for no thickness and no size of the grid, is a statement about all inputs", "anchors": ["shipgrav/grav.py:grav2d_layer_variable_density", "shipgrav/grav.py:_kvalue"]}
{"id": "C172", "title": "Up vectors in double precision", "statement": "up_vecs computes with doubles and with tangents, roots, arcus tangens, sines and cosines of a library. For platforms of between 4 and 300 samples a period (of at most 5000 s), with the default damping or one of 0.5 to 1, it returns one column per sample, and every component differs from that of the exact computation (C92) by at most (Mc + Ml)/19998 + 2⁻⁴⁷, where Mc and Ml are the largest cross and long accelerations in units of gravity. The bound does not depend on the length of the record. The caller's acceleration arrays change as in the exact computation.", "quantifier": "all accelerations, gravity values other than zero, flags, missing values, lengths, periods and dampings in the ranges given, all libraries within their error bounds", "why_tests_cant": "each tilt is computed from all earlier samples through a recursive filter with rounded coefficients, so rounding errors could accumulate; a test sees one record of one length", "anchors": ["shipgrav/grav.py:up_vecs", "shipgrav/grav.py:_tilt_filter", "shipgrav/grav.py:_calc_up_vecs"]}
{"id": "C173", "title": "Derivatives of recorded values in double precision", "statement": "Let f be a function with three (four) continuous derivatives and y doubles of size at most F that are within η of its values at samp samples a second. Entry k of center_diff(y, 1, samp), computed in double precision, is within K/(6 samp²) + samp·η + samp·F/2⁵⁰ of f' at sample k + 1, where K bounds the third derivative between the neighbouring samples; entry k of center_diff(y, 2, samp) is within K/(12 samp²) + 4 samp²·η + samp²·F/2⁴⁶ of f'', where K bounds the fourth derivative. The terms are truncation, the resolution of the record, and rounding.", "quantifier": "all functions f, records y, lengths, sampling rates > 0, entries k and bounds K", "why_tests_cant": "it bounds the sum of three errors for every smooth function and every record near it; a test compares with one function", "anchors": ["shipgrav/grav.py:center_diff"]}
