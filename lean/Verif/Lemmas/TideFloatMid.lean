import Verif.Lemmas.TideFloat

/-! The tide prediction in double precision: ranges and errors of every intermediate value, also close to a node at 180°.  The numbers in this file were computed
by a script; each step is checked by `decide`. -/

namespace Shipgrav
open Spec Real

/-- The angles at the node. -/
theorem iv_nodeMid {lm : TideLibm} (g : GoodTideLib lm.sin lm.cos lm.arctan lm.arcsin lm.arccos lm.arctanInf lm.sqrt lm.sqr lm.cube) {N : ℝ} {N' : ℚ} (hN : Iv (-63) 5 0 N N')
    (hc : (99 / 100000000) ≤ |sin N| ∨ 0 ≤ cos N)
    (hm1 : ((-(1 / 1000) : ℚ) : ℝ) ≤ sin N) (hm2 : sin N ≤ ((1 / 1000 : ℚ) : ℝ)) :
    ∃ j : ℤ, Iv 0 4 (8229 / 1000000000000000000) (nodeAnglesG exactTide N).1 (nodeAnglesG (doubleTide lm) N').1 ∧
      Iv (-(3 / 8000)) (3 / 8000) (1559 / 2500000000000000000) (nodeAnglesG exactTide N).2.1 (nodeAnglesG (doubleTide lm) N').2.1 ∧
      Iv (-4) 4 (1439 / 100000000000) ((nodeAnglesG exactTide N).2.2 + 2 * (j * π)) (nodeAnglesG (doubleTide lm) N').2.2 := by
  have v1 := iv_lit 0.08979719 (e := (209 / 200000000000000000000)) (by decide +kernel)
  have v2 := iv_lit 23.452 (e := (867 / 500000000000000000)) (by decide +kernel)
  have vom := iv_rad v2 (h := (41041 / 100000)) (e := (3949 / 10000000000000000000)) (by decide +kernel)
  have v3 := iv_cos g.cos vom (e := (839 / 1000000000000000000)) (by decide +kernel)
  have vco := v3.range (l' := (0.914)) (h' := 0.918) cosOmega_ge cosOmega_le
  have v4 := iv_sin g.sin vom (e := (839 / 1000000000000000000)) (by decide +kernel)
  have vso := v4.range (l' := (0.396)) (h' := 0.400) sinOmega_ge sinOmega_le
  have v5 := iv_cos g.cos v1 (e := (1113 / 2500000000000000000)) (by decide +kernel)
  have vci := v5.range (l' := (0.995)) (h' := 0.997) cosI_ge cosI_le
  have v6 := iv_sin g.sin v1 (e := (1113 / 2500000000000000000)) (by decide +kernel)
  have vsi := v6.range (l' := (0.089)) (h' := 0.090) sinI_ge sinI_le
  have vcN := iv_cos g.cos hN (e := (4441 / 10000000000000000000)) (by decide +kernel)
  have vsN := iv_sin g.sin hN (e := (4441 / 10000000000000000000)) (by decide +kernel)
  have vsn := vsN.range (l' := (-(1 / 1000))) (h' := (1 / 1000)) hm1 hm2
  have v7 := iv_mul vco vci (l := (90943 / 100000)) (h := (457623 / 500000)) (e := (1449 / 1000000000000000000)) (by decide +kernel)
  have v8 := iv_mul vso vsi (l := (8811 / 250000)) (h := (9 / 250)) (e := (327 / 1250000000000000000)) (by decide +kernel)
  have v9 := iv_mul v8 vcN (l := (-(9 / 250))) (h := (9 / 250)) (e := (357 / 1250000000000000000)) (by decide +kernel)
  have vx := iv_sub v7 v9 (l := (87343 / 100000)) (h := (475623 / 500000)) (e := (973 / 500000000000000000)) (by decide +kernel)
  have vI := iv_arccos g.arccos vx (e := (8229 / 1000000000000000000)) (by decide +kernel)
  have vSr := sin_arccos_range (le_trans (by norm_num) vx.1) (le_trans vx.2.1 (by norm_num))
  have v10 := iv_sin g.sin vI (e := (4337 / 500000000000000000)) (by decide +kernel)
  have vS := v10.range (l' := (0.30)) (h' := 0.49) vSr.1 vSr.2
  have v11 := iv_mul vsi vsn (l := (-(9 / 100000))) (h := (9 / 100000)) (e := (1011 / 25000000000000000000)) (by decide +kernel)
  have vq := iv_div v11 vS (l := (-(3 / 10000))) (h := (3 / 10000)) (e := (359 / 2500000000000000000)) (by decide +kernel)
  have vnu := iv_arcsin g.arcsin vq (h := (3 / 8000)) (e := (1559 / 2500000000000000000)) (by decide +kernel)
  have v12 := iv_cos_small g.cos vnu (e := (1111 / 2500000000000000000)) (by decide +kernel)
  have v13 := iv_mul vcN v12 (l := (-1)) (h := 1) (e := (1111 / 1000000000000000000)) (by decide +kernel)
  have v14 := iv_sin_small g.sin vnu (h := (3 / 8000)) (e := (267 / 250000000000000000)) (by decide +kernel)
  have v15 := iv_mul vsn v14 (l := (-(3 / 8000000))) (h := (3 / 8000000)) (e := (247 / 200000000000000000000)) (by decide +kernel)
  have v16 := iv_mul v15 vco (l := (-(1377 / 4000000000))) (h := (1377 / 4000000000)) (e := (227 / 200000000000000000000)) (by decide +kernel)
  have vca := iv_add v13 v16 (l := (-(1000001 / 1000000))) (h := (1000001 / 1000000)) (e := (267 / 200000000000000000)) (by decide +kernel)
  have v17 := iv_lit 1 (e := 0) (by decide +kernel)
  have vX := iv_add v17 vca (l := (-(1 / 1000000))) (h := (2000001 / 1000000)) (e := (89 / 50000000000000000)) (by decide +kernel)
  have v18 := iv_mul vso vsn (l := (-(1 / 2500))) (h := (1 / 2500)) (e := (893 / 5000000000000000000)) (by decide +kernel)
  have vsa := iv_div v18 vS (l := (-(666667 / 500000000))) (h := (666667 / 500000000)) (e := (3171 / 5000000000000000000)) (by decide +kernel)
  have f := alpha_facts (by norm_num) (by norm_num) hc
  obtain ⟨j, hat⟩ := half_angle (W := (250000000 / 99)) (es' := (8563 / 10000000000000000000)) (e := (899 / 125000000000)) g.arctan g.arctanInf f.1
    ⟨f.2.1, le_trans (by norm_num) f.2.2.1, le_trans f.2.2.2 (le_of_eq (by norm_num))⟩ vsa.2.2 vX.2.2 (by decide +kernel)
  have v19 := iv_lit 2 (e := 0) (by decide +kernel)
  have val := iv_mul v19 hat (l := (-4)) (h := 4) (e := (1439 / 100000000000)) (by decide +kernel)
  exact ⟨j, vI, vnu, iv_twice val⟩

/-- The longitude of the moon. -/
theorem iv_moonLongitudeMid {lm : TideLibm} (g : GoodTideLib lm.sin lm.cos lm.arctan lm.arcsin lm.arccos lm.arctanInf lm.sqrt lm.sqr lm.cube) {s p h N a : ℝ} {s' p' h' N' a' : ℚ} (hs : Iv (4720023 / 1000000) (84022 / 5) (59 / 3125000000000) s s') (hp : Iv (5834399 / 1000000) (1478733 / 10000) (129 / 625000000000000) p p')
    (hh : Iv (4881627 / 1000000) (252313 / 200) (59 / 40000000000000) h h') (hN : Iv (-63) 5 0 N N')
    (hal : Iv (-4) 4 (1439 / 100000000000) a a') :
    Iv (-(4416641 / 1000000)) (337431 / 20) (1447 / 100000000000) (moonLongitudeG exactTide (s - (N - a)) s p h) (moonLongitudeG (doubleTide lm) (toDouble (s' - toDouble (N' - a'))) s' p' h') := by
  have v1 := iv_sub hN hal (l := (-67)) (h := 9) (e := (9 / 625000000)) (by decide +kernel)
  have v2 := iv_sub hs v1 (l := (-(4279977 / 1000000))) (h := (84357 / 5)) (e := (1443 / 100000000000)) (by decide +kernel)
  have v3 := iv_lit 0.05490 (e := (2587 / 1000000000000000000000)) (by decide +kernel)
  have v4 := iv_lit 0.074804 (e := (563 / 125000000000000000000)) (by decide +kernel)
  have v5 := iv_lit 2 (e := 0) (by decide +kernel)
  have v6 := iv_sub hs hp (l := (-(1431533 / 10000))) (h := (1679857 / 100)) (e := (1141 / 50000000000000)) (by decide +kernel)
  have v7 := iv_mul v5 v6 (l := (-(1431533 / 5000))) (h := (1679857 / 50)) (e := (5311 / 100000000000000)) (by decide +kernel)
  have v8 := iv_mul v5 hh (l := (4881627 / 500000)) (h := (252313 / 100)) (e := (3511 / 1000000000000000)) (by decide +kernel)
  have v9 := iv_sub hs v8 (l := (-(251841 / 100))) (h := (419866 / 25)) (e := (2613 / 100000000000000)) (by decide +kernel)
  have v10 := iv_add v9 hp (l := (-(314072 / 125))) (h := (423563 / 25)) (e := (301 / 10000000000000)) (by decide +kernel)
  have v11 := iv_sub hs hh (l := (-(251369 / 200))) (h := (419988 / 25)) (e := (2409 / 100000000000000)) (by decide +kernel)
  have v12 := iv_mul v5 v11 (l := (-(251369 / 100))) (h := (839976 / 25)) (e := (1113 / 20000000000000)) (by decide +kernel)
  have v13 := iv_mul v5 v3 (l := (549 / 5000)) (h := (549 / 5000)) (e := (739 / 25000000000000000000)) (by decide +kernel)
  have v14 := iv_sin g.sin v6 (e := (2283 / 100000000000000)) (by decide +kernel)
  have v15 := iv_mul v13 v14 (l := (-(549 / 5000))) (h := (549 / 5000)) (e := (2507 / 1000000000000000)) (by decide +kernel)
  have v16 := iv_add v2 v15 (l := (-(4389777 / 1000000))) (h := (1687151 / 100)) (e := (361 / 25000000000)) (by decide +kernel)
  have v17 := iv_lit (5 / 4) (e := 0) (by decide +kernel)
  have v18 := iv_mul v17 v3 (l := (549 / 8000)) (h := (549 / 8000)) (e := (231 / 12500000000000000000)) (by decide +kernel)
  have v19 := iv_mul v18 v3 (l := (470939 / 125000000)) (h := (3767513 / 1000000000)) (e := (2029 / 1000000000000000000000)) (by decide +kernel)
  have v20 := iv_sin g.sin v7 (e := (83 / 1562500000000)) (by decide +kernel)
  have v21 := iv_mul v19 v20 (l := (-(3767513 / 1000000000))) (h := (3767513 / 1000000000)) (e := (1001 / 5000000000000000)) (by decide +kernel)
  have v22 := iv_add v16 v21 (l := (-(878709 / 200000))) (h := (421788 / 25)) (e := (289 / 20000000000)) (by decide +kernel)
  have v23 := iv_lit (15 / 4) (e := 0) (by decide +kernel)
  have v24 := iv_mul v23 v4 (l := (56103 / 200000)) (h := (56103 / 200000)) (e := (3959 / 50000000000000000000)) (by decide +kernel)
  have v25 := iv_mul v24 v3 (l := (1540027 / 100000000)) (h := (385007 / 25000000)) (e := (8493 / 1000000000000000000000)) (by decide +kernel)
  have v26 := iv_sin g.sin v10 (e := (3011 / 100000000000000)) (by decide +kernel)
  have v27 := iv_mul v25 v26 (l := (-(385007 / 25000000))) (h := (385007 / 25000000)) (e := (2319 / 5000000000000000)) (by decide +kernel)
  have v28 := iv_add v22 v27 (l := (-(2204473 / 500000))) (h := (843577 / 50)) (e := (723 / 50000000000)) (by decide +kernel)
  have v29 := iv_lit (11 / 8) (e := 0) (by decide +kernel)
  have v30 := iv_mul v29 v4 (l := (205711 / 2000000)) (h := (205711 / 2000000)) (e := (363 / 12500000000000000000)) (by decide +kernel)
  have v31 := iv_mul v30 v4 (l := (3847001 / 500000000)) (h := (7694003 / 1000000000)) (e := (543 / 125000000000000000000)) (by decide +kernel)
  have v32 := iv_sin g.sin v12 (e := (2783 / 50000000000000)) (by decide +kernel)
  have v33 := iv_mul v31 v32 (l := (-(7694003 / 1000000000))) (h := (7694003 / 1000000000)) (e := (4283 / 10000000000000000)) (by decide +kernel)
  have vL := iv_add v28 v33 (l := (-(4416641 / 1000000))) (h := (337431 / 20)) (e := (1447 / 100000000000)) (by decide +kernel)
  exact vL

/-- The cosine of the zenith angle of the moon. -/
theorem iv_cosMoonMid {lm : TideLibm} (g : GoodTideLib lm.sin lm.cos lm.arctan lm.arcsin lm.arccos lm.arctanInf lm.sqrt lm.sqr lm.cube) {a I L c : ℝ} {a' I' L' c' : ℚ} (hla : Iv (-(63 / 40)) (63 / 40) (1399 / 1000000000000000000) a a') (hI : Iv 0 4 (8229 / 1000000000000000000) I I')
    (hL : Iv (-(4416641 / 1000000)) (337431 / 20) (1447 / 100000000000) L L') (hc : Iv (-(278391 / 25000)) (1277583 / 1000) (1033 / 500000000000000) c c') :
    Iv (-3) 3 (17 / 390625000) (cosZenithG exactTide a I L c) (cosZenithG (doubleTide lm) a' I' L' c') := by
  have v1 := iv_lit 0.5 (e := 0) (by decide +kernel)
  have v2 := iv_mul v1 hI (l := 0) (h := 2) (e := (4559 / 1000000000000000000)) (by decide +kernel)
  have v3 := iv_sin g.sin hla (e := (461 / 250000000000000000)) (by decide +kernel)
  have v4 := iv_sin g.sin hI (e := (4337 / 500000000000000000)) (by decide +kernel)
  have v5 := iv_mul v3 v4 (l := (-1)) (h := 1) (e := (43 / 4000000000000000)) (by decide +kernel)
  have v6 := iv_sin g.sin hL (e := (181 / 12500000000)) (by decide +kernel)
  have v7 := iv_mul v5 v6 (l := (-1)) (h := 1) (e := (1449 / 100000000000)) (by decide +kernel)
  have v8 := iv_cos g.cos v2 (e := (1251 / 250000000000000000)) (by decide +kernel)
  have v9 := iv_sqr g.sqr v8 (h := 1) (e := (1 / 97656250000000)) (by decide +kernel)
  have v10 := iv_sub hL hc (l := (-1282)) (h := (1688269 / 100)) (e := (181 / 12500000000)) (by decide +kernel)
  have v11 := iv_cos g.cos v10 (e := (1449 / 100000000000)) (by decide +kernel)
  have v12 := iv_mul v9 v11 (l := (-1)) (h := 1) (e := (29 / 2000000000)) (by decide +kernel)
  have v13 := iv_sin g.sin v2 (e := (1251 / 250000000000000000)) (by decide +kernel)
  have v14 := iv_sqr g.sqr v13 (h := 1) (e := (1 / 97656250000000)) (by decide +kernel)
  have v15 := iv_add hL hc (l := (-(1555229 / 100000))) (h := (907457 / 50)) (e := (181 / 12500000000)) (by decide +kernel)
  have v16 := iv_cos g.cos v15 (e := (1449 / 100000000000)) (by decide +kernel)
  have v17 := iv_mul v14 v16 (l := (-1)) (h := 1) (e := (29 / 2000000000)) (by decide +kernel)
  have v18 := iv_add v12 v17 (l := (-2)) (h := 2) (e := (2901 / 100000000000)) (by decide +kernel)
  have v19 := iv_cos g.cos hla (e := (461 / 250000000000000000)) (by decide +kernel)
  have v20 := iv_mul v19 v18 (l := (-2)) (h := 2) (e := (1451 / 50000000000)) (by decide +kernel)
  have vz := iv_add v7 v20 (l := (-3)) (h := 3) (e := (17 / 390625000)) (by decide +kernel)
  exact vz

/-- The accelerations of moon and sun. -/
theorem iv_forceMid {lm : TideLibm} (g : GoodTideLib lm.sin lm.cos lm.arctan lm.arcsin lm.arccos lm.arctanInf lm.sqrt lm.sqr lm.cube) {r d D c p : ℝ} {r' d' D' c' p' : ℚ} (hr : Iv 632558000 638827000 (291 / 400000000) r r')
    (hd : Iv 35877590000 41397040000 (4381 / 50000) d d') (hD : Iv 14703620000000 15204770000000 (933 / 2000) D D')
    (hct : Iv (-1) 1 (17 / 390625000) c c') (hcp : Iv (-1) 1 (617 / 62500000000000) p p') :
    Iv (-(257449 / 3125000000)) (375659 / 2500000000) (1917 / 100000000000000) (tideForceG exactTide r d D c p).1 (tideForceG (doubleTide lm) r' d' D' c' p').1 ∧
      Iv (-(334079 / 12500000000)) (334079 / 6250000000) (159 / 100000000000000000) (tideForceG exactTide r d D c p).2 (tideForceG (doubleTide lm) r' d' D' c' p').2 := by
  have v1 := iv_lit 6.673e-8 (e := (41 / 15625000000000000000000000)) (by decide +kernel)
  have v2 := iv_lit 73537000000000000000000000 (e := 3870000000) (by decide +kernel)
  have v3 := iv_lit 1993000000000000000000000000000000 (e := 22580000000000000) (by decide +kernel)
  have v4 := iv_lit 3 (e := 0) (by decide +kernel)
  have v5 := iv_lit 1 (e := 0) (by decide +kernel)
  have v6 := iv_mul hd hd (l := 1287201000000000000000) (h := 1713715000000000000000) (e := 7255000000) (by decide +kernel)
  have v7 := iv_mul v6 hd (l := 46181660000000000000000000000000) (h := 70942730000000000000000000000000) (e := 450600000000000000000) (by decide +kernel)
  have v8 := iv_mul v1 v2 (l := 4907124000000000000) (h := 4907125000000000000) (e := 1541) (by decide +kernel)
  have v9 := iv_mul v8 hr (l := 3104040000000000000000000000) (h := 3134804000000000000000000000) (e := 5251000000000) (by decide +kernel)
  have v10 := iv_div v9 v7 (l := (546927 / 12500000000)) (h := (1357597 / 20000000000)) (e := (53 / 80000000000000000)) (by decide +kernel)
  have v11 := iv_sqr g.sqr hct (h := 1) (e := (1741 / 20000000000)) (by decide +kernel)
  have v12 := iv_mul v4 v11 (l := 0) (h := 3) (e := (653 / 2500000000)) (by decide +kernel)
  have v13 := iv_sub v12 v5 (l := (-1)) (h := 2) (e := (2613 / 10000000000)) (by decide +kernel)
  have v14 := iv_mul v10 v13 (l := (-(1357597 / 20000000000))) (h := (1357597 / 10000000000)) (e := (887 / 50000000000000)) (by decide +kernel)
  have v15 := iv_lit (3 / 2) (e := 0) (by decide +kernel)
  have v16 := iv_mul v9 hr (l := 1963485000000000000000000000000000000) (h := 2002598000000000000000000000000000000) (e := 6080000000000000000000) (by decide +kernel)
  have v17 := iv_mul v7 hd (l := 1656886000000000000000000000000000000000000) (h := 2936820000000000000000000000000000000000000) (e := 24880000000000000000000000000000) (by decide +kernel)
  have v18 := iv_div v16 v17 (l := (6685751 / 10000000000000)) (h := (302163 / 250000000000)) (e := (227 / 12500000000000000000)) (by decide +kernel)
  have v19 := iv_mul v15 v18 (l := (501431 / 500000000000)) (h := (906489 / 500000000000)) (e := (109 / 4000000000000000000)) (by decide +kernel)
  have v20 := iv_lit 5 (e := 0) (by decide +kernel)
  have v21 := iv_cube g.cube hct (h := 1) (e := (653 / 5000000000)) (by decide +kernel)
  have v22 := iv_mul v20 v21 (l := (-5)) (h := 5) (e := (6531 / 10000000000)) (by decide +kernel)
  have v23 := iv_mul v4 hct (l := (-3)) (h := 3) (e := (653 / 5000000000)) (by decide +kernel)
  have v24 := iv_sub v22 v23 (l := (-8)) (h := 8) (e := (3919 / 5000000000)) (by decide +kernel)
  have v25 := iv_mul v19 v24 (l := (-(1450383 / 100000000000))) (h := (1450383 / 100000000000)) (e := (711 / 500000000000000)) (by decide +kernel)
  have vgm := iv_add v14 v25 (l := (-(257449 / 3125000000))) (h := (375659 / 2500000000)) (e := (1917 / 100000000000000)) (by decide +kernel)
  have v26 := iv_mul v1 v3 (l := 132992800000000000000000000) (h := 132992900000000000000000000) (e := 36270000000) (by decide +kernel)
  have v27 := iv_mul v26 hr (l := 84125650000000000000000000000000000) (h := 84959460000000000000000000000000000) (e := 138800000000000000000) (by decide +kernel)
  have v28 := iv_mul hD hD (l := 216196400000000000000000000) (h := 231185100000000000000000000) (e := 14240000000000) (by decide +kernel)
  have v29 := iv_mul v28 hD (l := 3178869000000000000000000000000000000000) (h := 3515117000000000000000000000000000000000) (e := 325200000000000000000000000) (by decide +kernel)
  have v30 := iv_div v27 v29 (l := (2393253 / 100000000000)) (h := (334079 / 12500000000)) (e := (87 / 31250000000000000000)) (by decide +kernel)
  have v31 := iv_sqr g.sqr hcp (h := 1) (e := (79 / 4000000000000)) (by decide +kernel)
  have v32 := iv_mul v4 v31 (l := 0) (h := 3) (e := (2963 / 50000000000000)) (by decide +kernel)
  have v33 := iv_sub v32 v5 (l := (-1)) (h := 2) (e := (5927 / 100000000000000)) (by decide +kernel)
  have vgs := iv_mul v30 v33 (l := (-(334079 / 12500000000))) (h := (334079 / 6250000000)) (e := (159 / 100000000000000000)) (by decide +kernel)
  exact ⟨vgm, vgs⟩

/-- The effects in mGal. -/
theorem iv_totalMid (lm : TideLibm) {m s : ℝ} {m' s' : ℚ} (hm : Iv (-(257449 / 3125000000)) (375659 / 2500000000) (1917 / 100000000000000) m m') (hs : Iv (-(334079 / 12500000000)) (334079 / 6250000000) (159 / 100000000000000000) s s') :
    Iv (-(1262949 / 10000000)) (2358017 / 10000000) (1111 / 50000000000) (tideTotalG exactTide (m, s)).1 (tideTotalG (doubleTide lm) (m', s')).1 ∧
      Iv (-(9535911 / 100000000)) (869651 / 5000000) (2221 / 100000000000) (tideTotalG exactTide (m, s)).2.1 (tideTotalG (doubleTide lm) (m', s')).2.1 ∧
      Iv (-(773393 / 25000000)) (773393 / 12500000) (921 / 500000000000000) (tideTotalG exactTide (m, s)).2.2 (tideTotalG (doubleTide lm) (m', s')).2.2 := by
  have v1 := iv_lit 1 (e := 0) (by decide +kernel)
  have v2 := iv_lit 0.612 (e := (231 / 20000000000000000000)) (by decide +kernel)
  have v3 := iv_add v1 v2 (l := (403 / 250)) (h := (403 / 250)) (e := (739 / 2000000000000000000)) (by decide +kernel)
  have v4 := iv_lit 1.5 (e := 0) (by decide +kernel)
  have v5 := iv_lit 0.303 (e := (4219 / 500000000000000000000)) (by decide +kernel)
  have v6 := iv_mul v4 v5 (l := (909 / 2000)) (h := (909 / 2000)) (e := (71 / 625000000000000000)) (by decide +kernel)
  have v7 := iv_sub v3 v6 (l := (463 / 400)) (h := (463 / 400)) (e := (3701 / 5000000000000000000)) (by decide +kernel)
  have v8 := iv_lit 1000 (e := 0) (by decide +kernel)
  have v9 := iv_add hm hs (l := (-(10911 / 100000000))) (h := (2037163 / 10000000000)) (e := (959 / 50000000000000)) (by decide +kernel)
  have v10 := iv_mul v9 v8 (l := (-(10911 / 100000))) (h := (2037163 / 10000000)) (e := (1919 / 100000000000)) (by decide +kernel)
  have vg0 := iv_mul v10 v7 (l := (-(1262949 / 10000000))) (h := (2358017 / 10000000)) (e := (1111 / 50000000000)) (by decide +kernel)
  have v11 := iv_mul hm v8 (l := (-(257449 / 3125000))) (h := (375659 / 2500000)) (e := (959 / 50000000000)) (by decide +kernel)
  have vg1 := iv_mul v11 v7 (l := (-(9535911 / 100000000))) (h := (869651 / 5000000)) (e := (2221 / 100000000000)) (by decide +kernel)
  have v12 := iv_mul hs v8 (l := (-(334079 / 12500000))) (h := (334079 / 6250000)) (e := (1591 / 1000000000000000)) (by decide +kernel)
  have vg2 := iv_mul v12 v7 (l := (-(773393 / 25000000))) (h := (773393 / 12500000)) (e := (921 / 500000000000000)) (by decide +kernel)
  exact ⟨vg0, vg1, vg2⟩

/-- The tide at one point, compared with the tide for the longitude of the node that was computed. -/
theorem iv_pointMid {lm : TideLibm} (g : GoodTideLib lm.sin lm.cos lm.arctan lm.arcsin lm.arccos lm.arctanInf lm.sqrt lm.sqr lm.cube) {lon lat alt t0 s p h p1 e1 : ℝ} {lon' lat' alt' t0' s' p' h' p1' e1' : ℚ} {N' : ℚ}
    (hlon : Iv (-720) 720 0 lon lon') (hlat : Iv (-90) 90 0 lat lat') (halt : Iv (-10000) 10000 0 alt alt')
    (ht0 : Iv 0 (2501667 / 100000) (567 / 50000000000000000) t0 t0')
    (hs : Iv (4720023 / 1000000) (84022 / 5) (59 / 3125000000000) s s')
    (hp : Iv (5834399 / 1000000) (1478733 / 10000) (129 / 625000000000000) p p')
    (hh : Iv (4881627 / 1000000) (252313 / 200) (59 / 40000000000000) h h')
    (hp1 : Iv (4908229 / 1000000) (4968273 / 1000000) (2597 / 1000000000000000000) p1 p1')
    (he : Iv (416673 / 25000000) (52347 / 3125000) (4603 / 500000000000000000000) e1 e1')
    (hN1 : -63 ≤ N') (hN2 : N' ≤ 5) (hc : (99 / 100000000) ≤ |sin (N' : ℝ)| ∨ 0 ≤ cos (N' : ℝ))
    (hm1 : ((-(1 / 1000) : ℚ) : ℝ) ≤ sin (N' : ℝ)) (hm2 : sin (N' : ℝ) ≤ ((1 / 1000 : ℚ) : ℝ)) :
    Iv (-(1262949 / 10000000)) (2358017 / 10000000) (1111 / 50000000000) (tideFromArgsG exactTide lon lat alt t0 ⟨s, p, h, N', p1, e1⟩).1 (tideFromArgsG (doubleTide lm) lon' lat' alt' t0' ⟨s', p', h', N', p1', e1'⟩).1 ∧
      Iv (-(9535911 / 100000000)) (869651 / 5000000) (2221 / 100000000000) (tideFromArgsG exactTide lon lat alt t0 ⟨s, p, h, N', p1, e1⟩).2.1 (tideFromArgsG (doubleTide lm) lon' lat' alt' t0' ⟨s', p', h', N', p1', e1'⟩).2.1 ∧
      Iv (-(773393 / 25000000)) (773393 / 12500000) (921 / 500000000000000) (tideFromArgsG exactTide lon lat alt t0 ⟨s, p, h, N', p1, e1⟩).2.2 (tideFromArgsG (doubleTide lm) lon' lat' alt' t0' ⟨s', p', h', N', p1', e1'⟩).2.2 := by
  have hN := iv_self N' hN1 hN2
  obtain ⟨j, hI, hnu, hal⟩ := iv_nodeMid g hN hc hm1 hm2
  have vla := iv_rad hlat (h := (63 / 40)) (e := (1399 / 1000000000000000000)) (by decide +kernel)
  have v1 := iv_lit 100 (e := 0) (by decide +kernel)
  have vH := iv_mul halt v1 (l := (-1000000)) (h := 1000000) (e := (2221 / 10000000000000)) (by decide +kernel)
  have v101 := iv_lit 15 (e := 0) (by decide +kernel)
  have v102 := iv_lit 12 (e := 0) (by decide +kernel)
  have v103 := iv_sub ht0 v102 (l := (-12)) (h := (1301667 / 100000)) (e := (89 / 6250000000000000)) (by decide +kernel)
  have v104 := iv_mul v101 v103 (l := (-180)) (h := (1952501 / 10000)) (e := (257 / 1000000000000000)) (by decide +kernel)
  have v105 := iv_neg hlon
  have v106 := iv_sub v104 v105 (l := (-900)) (h := (9152501 / 10000)) (e := (4603 / 10000000000000000)) (by decide +kernel)
  have vt := iv_rad v106 (h := (200211 / 12500)) (e := (2229 / 100000000000000000)) (by decide +kernel)
  have vchi1 := iv_add vt hh (l := (-(556763 / 50000))) (h := (638791 / 500)) (e := (1781 / 1000000000000000)) (by decide +kernel)
  have vchi := iv_sub vchi1 hnu (l := (-(278391 / 25000))) (h := (1277583 / 1000)) (e := (1033 / 500000000000000)) (by decide +kernel)
  have v201 := iv_lit 2 (e := 0) (by decide +kernel)
  have v202 := iv_mul v201 he (l := (416673 / 12500000)) (h := (52347 / 1562500)) (e := (1293 / 50000000000000000000)) (by decide +kernel)
  have v203 := iv_sub hh hp1 (l := (-(43323 / 500000))) (h := (1256657 / 1000)) (e := (1757 / 1000000000000000)) (by decide +kernel)
  have v204 := iv_sin g.sin v203 (e := (879 / 500000000000000)) (by decide +kernel)
  have v205 := iv_mul v202 v204 (l := (-(52347 / 1562500))) (h := (52347 / 1562500)) (e := (5893 / 100000000000000000)) (by decide +kernel)
  have vLs := iv_add hh v205 (l := (1212031 / 250000)) (h := (1261599 / 1000)) (e := (363 / 200000000000000)) (by decide +kernel)
  have vom : Iv (-(41041 / 100000)) (41041 / 100000) (3949 / 10000000000000000000) (tideOmegaG exactTide) (tideOmegaG (doubleTide lm)) := by
    have v301 := iv_lit 23.452 (e := (867 / 500000000000000000)) (by decide +kernel)
    have x := iv_rad v301 (h := (41041 / 100000)) (e := (3949 / 10000000000000000000)) (by decide +kernel)
    exact x
  have vL := iv_moonLongitudeMid g hs hp hh hN hal
  have vzm := iv_cosMoonMid g vla hI vL vchi
  rw [moonLongitudeG_turn, cosZenithG_turn] at vzm
  have vzs := iv_cosSun g vla vom vLs vchi1
  have vr := iv_earthRadius g vla vH
  have vd := iv_moonDistance g hs hp hh
  have vD := iv_sunDistance g he hh hp1
  have vf := iv_forceMid g vr vd vD (vzm.range (l' := -1) (h' := 1) (cosZenithG_bounds _ _ _ _).1 (cosZenithG_bounds _ _ _ _).2)
    (vzs.range (l' := -1) (h' := 1) (cosZenithG_bounds _ _ _ _).1 (cosZenithG_bounds _ _ _ _).2)
  exact iv_totalMid lm vf.1 vf.2

end Shipgrav
