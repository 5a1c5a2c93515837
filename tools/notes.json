{
 "C05": {
  "status": "partial",
  "note": "The claim is false: for every fl >= 2 the centre weight is strictly below its neighbours (C05_centre_is_not_the_peak). Proved part: strictly decreasing from the first neighbour outwards."
 },
 "C13": {
  "status": "partial",
  "note": "The claim is false: the comment after an unquoted string is always dropped (C13_comment_always_dropped, C13_refuted). Proved part: comments survive on lines that are not requoted."
 },
 "C16": {
  "status": "partial",
  "note": "The claim is false: the cross-hair snaps to the first point at or after the mouse (C16_not_closest). Proved part: exactly that behaviour, for all histories."
 },
 "C24": {
  "status": "partial",
  "note": "The claim is false for fractions whose canonical decimal form does not have exactly two digits (C24_half_second_refuted; C24_fraction_correct_iff_partial gives the exact condition). Proved part: whole seconds and two-digit fractions, and what is returned for every other fraction."
 },
 "C25": {
  "status": "partial",
  "note": "The claim is false: C24's misread fractions and C26's midnight shift can swap fixes (C25_order_lost_refuted, C25_midnight_refuted). Proved part: fixes whose assigned timestamps increase keep their order and none is lost."
 },
 "C30": {
  "status": "partial",
  "note": "The claim is false: any two nonzero sampling arguments give the same result (C30_sampling_ignored_refuted); C30_witness_refuted is a concrete track that is not resampled. C29 states what is returned instead: the original epochs."
 },
 "C39": {
  "status": "partial",
  "note": "The claim is false for a single spike: two jumps or fewer are never acted on (C39_single_spike_kept_refuted). Proved part: two or more isolated spikes are removed, and nothing else."
 },
 "C45": {
  "status": "partial",
  "note": "The claim is false: the last line of the file is never returned (C45_last_line_lost: whenever it is tagged there is one row too few). Proved part: one row for every tagged line before the last one."
 },
 "C46": {
  "status": "partial",
  "note": "The claim is false for lines whose first field is empty: their fields shift left (C46_empty_first_field_refuted). Proved part: the field mapping for all files whose tagged lines have a first field, the optional dollar sign, absent tags, and the numeric conversion."
 },
 "C59": {
  "status": "partial",
  "note": "The claim is false: when there is a gap, everything after the last gap is left out (C59_after_last_gap_ignored), so a record whose only long stretch is the last one raises (C59_last_stretch_refuted); each stretch also loses its last sample, so 1001 are needed. Proved part: stretches between gaps contribute, and without gaps all samples do."
 },
 "C69": {
  "status": "partial",
  "note": "The claim is false for profiles with an odd number of points: the upper bins get a wavenumber one too high (C69_odd_refuted). Proved part: for even lengths the wavenumbers are those of the DFT and the inverse transform is real."
 },
 "C73": {
  "status": "partial",
  "note": "The claim is false for every size from 3 on: bin n//2+1 gets a positive frequency that is too large (C73_refuted), which changes the anomaly (C73_effect_refuted). Proved part: all other bins are right."
 },
 "C78": {
  "status": "partial",
  "note": "The claim is false near zero age: ten terms overshoot, and the middle of every young enough plate is hotter than the mantle (C78_young_plate_refuted). Proved part: never negative at any age and depth, and never above Tm once the slowest term has decayed to 9/20."
 },
 "C81": {
  "status": "partial",
  "note": "The claim is false for every length from 2 on (C81_refuted: a spike at the first point is recovered at the last). Proved part: with a taper that passes all wavenumbers the recovered gravity is the input shifted by one sample along each axis, around the ends."
 },
 "C82": {
  "status": "partial",
  "note": "The claim is false for every length from 2 on (C82_refuted). Proved part: for all arguments the thickness with back=True is the thickness with back=False in reversed order."
 },
 "C84": {
  "status": "partial",
  "note": "The claim is false: every bin gets the wavenumber of the bin before (bin 0 that of one cycle), which is its own only for the bin just after the middle of an odd number (C84_right_iff); the effect is shown for every length from 3 on (C84_effect_refuted). Proved part: the value of the thickness with the wavenumbers that are used."
 },
 "C96": {
  "status": "partial",
  "note": "The claim is false for every length from 3 on and every positive depth (C96_refuted). Proved part: without continuation, and with a taper that passes all wavenumbers, the thickness is real."
 },
 "C98": {
  "status": "partial",
  "note": "The claim is false: powers of the topography are taken about the zero level and not about the mean (C98_datum_refuted: the anomaly over a step grows with the shift). Proved part: profiles of mean zero; the origin of the distances does not matter."
 },
 "C103": {
  "status": "partial",
  "note": "The claim is false: of two dropouts in a row one stays (C103_consecutive_refuted), and in western longitudes a dropout that reads zero stays while the good row before it is removed (C103_west_refuted). Proved part: which rows are kept, and the claim for dropouts that stand alone and read west of the track."
 },
 "C101": {
  "status": "partial",
  "note": "The claim is false: the script projects the long acceleration with the cross component and the cross acceleration with the long component (C101_refuted: with cross acceleration only, its projection is missing). Proved part: the value that is computed, and that it is zero without accelerations; a number for on_off acts like an array of it."
 },
 "C105": {
  "status": "partial",
  "note": "The claim is false for the level error, which is two samples behind in the regression and is not corrected for (C105_level_coefficient_refuted). Proved part: the claim for the other four monitors, with the level error counted two samples back."
 },
 "C106": {
  "status": "partial",
  "note": "The claim is false for the later pick, which is not among the rows written (C106_end_refuted). Proved part: pairs, order, bounds, rows and file names."
 },
 "C108": {
  "status": "partial",
  "note": "The claim is false for numbers that Python reads and TOML does not (.5), keys and texts with TRUE or FALSE in them, unquoted texts with = (cut there) and backslashes (C108_*_refuted). Proved part: the claim for all files whose lines have none of these."
 },
 "C110": {
  "status": "partial",
  "note": "The claim holds for `[taps:-taps]` (C110_track_trim) and is false for `[taps:-taps//2]` at the end of the series (C110_plot_trim_refuted). Proved part for the latter: all kept samples but the last 239."
 },
 "C120": {
  "status": "partial",
  "note": "The claim is false: readings are taken to be evenly spaced, so on either side of a gap the speed is overestimated and the anomaly is too high for a ship that goes east (C120_gap_refuted). Proved part: what correction is used for any pattern of times, and the claim for evenly spaced readings."
 },
 "C125": {
  "status": "partial",
  "note": "The claim is false: the temperature has ten terms, of which 1, 3, 5, 7, 9 contribute to the contraction, the subsidence has only 1, 3, 5, so it is too large at every age (C125_refuted). Proved part: the exact difference, and that it is at most 1.4 % of the scale and goes down with exp(-49 pi^2 k t / L^2)."
 },
 "C87": {
  "status": "partial",
  "note": "The ISO part is false: int(float('.'+f)*1e6) loses a microsecond for some fractions, '.0157' gives 15699 (C87_iso_refuted). Proved: never more than one microsecond early and never late (fractions up to nine digits); exact for whole milliseconds written with up to three digits."
 },
 "C130": {
  "status": "partial",
  "note": "False for DGS raw files whose clock is synchronised part-way: the first record alone decides, so the file read in one piece has no date_time at all while the files it can be cut into have it (C130_raw_refuted, for every such file). Proved for BGM, RGS, laptop files (common format, Thompson, Sikuliaq with their headers, Langseth with any other lines), raw files of Thompson and Sikuliaq, and other raw files with the clock synchronised throughout."
 },
 "C155": {
  "status": "partial",
  "note": "False in the code for b ≠ 0 (C155_profile_refuted): the powers are those of the raw heights, so every wave has the additional factor 1 + kb + (kb)²/2 + (kb)³/6 + (kb)⁴/24 (C155_profile_response, exact for all inputs). True for b = 0 (partial)."
 }
}